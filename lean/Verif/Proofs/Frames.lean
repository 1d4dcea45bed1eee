import Verif.Spec.Occurs
import Verif.Spec.NodeValues
import Verif.Proofs.UnparseDerives
/-
Every category of the grammar is used in a program: for each category a piece of program around it.  Written by
tools/gen_frames.py.
-/
namespace Verif
open RV (Occurs)

theorem RV.Occurs.trans {x y z : RV} (h : Occurs x y) (h' : Occurs y z) : Occurs x z := by
  induction h' with
  | refl => exact h
  | vec hv _ ih => exact .vec hv ih
  | node hv _ ih => exact .node hv ih

/-- Any phrase `w` of the category `n` with the value `v` becomes a phrase of `m` with `a` before and `b` after it, and
its value contains `v`. -/
def Frame (n m : NT) (a b : List Token) : Prop := ∀ w v, Derives n w v →
  ∃ v', Derives m (a.map STok.at0 ++ (w ++ b.map STok.at0)) v' ∧ Occurs (rv n v) (rv m v')

theorem Frame.refl (n : NT) : Frame n n [] [] := fun w v d => ⟨v, by simpa using d, .refl⟩

theorem Frame.trans {n m k : NT} {a b a' b' : List Token} (h : Frame n m a b) (h' : Frame m k a' b') :
    Frame n k (a' ++ a) (b ++ b') := by
  intro w v d
  obtain ⟨v1, d1, o1⟩ := h w v d
  obtain ⟨v2, d2, o2⟩ := h' _ v1 d1
  exact ⟨v2, by simpa using d2, o1.trans o2⟩

local macro "occ1" : tactic => `(tactic| exact RV.Occurs.refl)
local macro "occ2" : tactic => `(tactic| first
  | occ1
  | (refine RV.Occurs.node (List.Mem.head _) ?_; occ1) | (refine RV.Occurs.vec (List.Mem.head _) ?_; occ1)
  | (refine RV.Occurs.vec (List.Mem.tail _ (List.Mem.head _)) ?_; occ1)
  | (refine RV.Occurs.node (List.Mem.tail _ (List.Mem.head _)) ?_; occ1)
  | (refine RV.Occurs.node (List.Mem.tail _ (List.Mem.tail _ (List.Mem.head _))) ?_; occ1)
  | (refine RV.Occurs.node (List.Mem.tail _ (List.Mem.tail _ (List.Mem.tail _ (List.Mem.head _)))) ?_; occ1)
  | (refine RV.Occurs.node (List.Mem.tail _ (List.Mem.tail _ (List.Mem.tail _ (List.Mem.tail _ (List.Mem.head _))))) ?_; occ1))
local macro "occ3" : tactic => `(tactic| first
  | occ2
  | (refine RV.Occurs.node (List.Mem.head _) ?_; occ2)
  | (refine RV.Occurs.vec (List.Mem.head _) ?_; occ2)
  | (refine RV.Occurs.node (List.Mem.tail _ (List.Mem.head _)) ?_; occ2)
  | (refine RV.Occurs.node (List.Mem.tail _ (List.Mem.tail _ (List.Mem.head _))) ?_; occ2)
  | (refine RV.Occurs.node (List.Mem.tail _ (List.Mem.tail _ (List.Mem.tail _ (List.Mem.head _)))) ?_; occ2)
  | (refine RV.Occurs.node (List.Mem.tail _ (List.Mem.tail _ (List.Mem.tail _ (List.Mem.tail _ (List.Mem.head _))))) ?_; occ2))
local macro "occ4" : tactic => `(tactic| first
  | occ3
  | (refine RV.Occurs.node (List.Mem.head _) ?_; occ3)
  | (refine RV.Occurs.vec (List.Mem.head _) ?_; occ3)
  | (refine RV.Occurs.node (List.Mem.tail _ (List.Mem.head _)) ?_; occ3)
  | (refine RV.Occurs.node (List.Mem.tail _ (List.Mem.tail _ (List.Mem.head _))) ?_; occ3)
  | (refine RV.Occurs.node (List.Mem.tail _ (List.Mem.tail _ (List.Mem.tail _ (List.Mem.head _)))) ?_; occ3)
  | (refine RV.Occurs.node (List.Mem.tail _ (List.Mem.tail _ (List.Mem.tail _ (List.Mem.tail _ (List.Mem.head _))))) ?_; occ3))
local macro "occ5" : tactic => `(tactic| first
  | occ4
  | (refine RV.Occurs.node (List.Mem.head _) ?_; occ4)
  | (refine RV.Occurs.vec (List.Mem.head _) ?_; occ4)
  | (refine RV.Occurs.node (List.Mem.tail _ (List.Mem.head _)) ?_; occ4)
  | (refine RV.Occurs.node (List.Mem.tail _ (List.Mem.tail _ (List.Mem.head _))) ?_; occ4)
  | (refine RV.Occurs.node (List.Mem.tail _ (List.Mem.tail _ (List.Mem.tail _ (List.Mem.head _)))) ?_; occ4)
  | (refine RV.Occurs.node (List.Mem.tail _ (List.Mem.tail _ (List.Mem.tail _ (List.Mem.tail _ (List.Mem.head _))))) ?_; occ4))

-- small phrases
set_option quotPrecheck false in
local notation "C" => STok.at0 (Token.customIdentifier (str! "C"))
set_option quotPrecheck false in
local notation "X" => STok.at0 (Token.identifier (str! "x"))
theorem sInt : ∃ v, Derives .signedInt [STok.at0 (.number (str! "0"))] v := ⟨_, .signedInt rfl⟩
theorem sReg : ∃ v, Derives .regularId [X] v := ⟨_, .regularId rfl⟩
theorem sName : ∃ v, Derives .typeName [C] v := ⟨_, .typeNameCustom (.customId rfl)⟩
theorem sMeta : ∃ v, Derives .metaId [C] v := sName.elim fun _ h => ⟨_, .metaName h⟩
theorem sType : ∃ v, Derives .scillaType [C] v :=
  sMeta.elim fun _ h => ⟨_, .typeRem (.remGeneric (w2 := []) rfl h .starNil)⟩
theorem sVar : ∃ v, Derives .varId [X] v := sReg.elim fun _ h => ⟨_, .varName h⟩
theorem sExpr : ∃ v, Derives .fullExpr [X] v := sVar.elim fun _ h => ⟨_, .exprAtomic (.atomicVar h)⟩
theorem sKey : ∃ v, Derives .mapKey [C] v := sMeta.elim fun _ h => ⟨_, .keyMeta h⟩
theorem sVal : ∃ v, Derives .mapValue [C] v := sMeta.elim fun _ h => ⟨_, .valMeta h⟩
theorem sComp : ∃ v, Derives .componentId [C] v := sName.elim fun _ h => ⟨_, .componentType h⟩
theorem sTyped : ∃ v, Derives .typedId [X, STok.at0 .colon, C] v :=
  sReg.elim fun _ h => sType.elim fun _ h' => ⟨_, .typedId (w1 := [X]) rfl h (.typeAnn rfl h')⟩
theorem sAField : ∃ v, Derives .addressField [STok.at0 .field, X, STok.at0 .colon, C] v :=
  sVar.elim fun _ h => sType.elim fun _ h' => ⟨_, .addrField (w1 := [X]) rfl h h'⟩
theorem sEntry : ∃ v, Derives .messageEntry [X, STok.at0 .colon, X] v :=
  sVar.elim fun _ h => ⟨_, .msgVariable (w1 := [X]) rfl h h⟩
theorem sParams : ∃ v, Derives .compParams [STok.at0 .openParen, STok.at0 .closeParen] v :=
  ⟨_, .compParams (w1 := []) (w2 := []) rfl .optNone .starNil⟩
theorem sBody : ∃ v, Derives .compBody [STok.at0 .end_] v := ⟨_, .compBody (w1 := []) rfl .optNone⟩
theorem sContract : ∃ v, Derives .contractDef
    [STok.at0 .contract, C, STok.at0 .openParen, STok.at0 .closeParen] v :=
  sName.elim fun _ h => sParams.elim fun _ h' => ⟨_, .contractDef (w1 := [C])
    (w2 := [STok.at0 .openParen, STok.at0 .closeParen]) (w3 := []) (w4 := []) (w5 := []) rfl h h' .optNone .starNil .starNil⟩

local macro "word" : tactic => `(tactic| first
  | rfl
  | (simp only [List.append_assoc, List.cons_append, List.nil_append, List.append_nil]; done)
  | (simp only [List.append_assoc, List.cons_append, List.nil_append, List.append_nil]; rfl))

theorem frame_byteString : Frame .byteString .typeName [] [] := by
  intro w v d
  try (cases v with | mk x p q => ?_)
  simp only [List.map_nil, List.nil_append, List.append_nil]
  exact ⟨_, .typeNameBytes d, by occ5⟩

theorem frame_typeName : Frame .typeName .metaId [] [] := by
  intro w v d
  try (cases v with | mk x p q => ?_)
  simp only [List.map_nil, List.nil_append, List.append_nil]
  exact ⟨_, .metaName d, by occ5⟩

theorem frame_importedName : Frame .importedName .importDecls [.import_] [] := by
  intro w v d
  try (cases v with | mk x p q => ?_)
  simp only [List.map_cons, List.map_nil, List.nil_append, List.append_nil, List.cons_append]
  exact ⟨_, .importFirst (by word) (.plusIntro d .starNil), by occ5⟩

theorem frame_importDecls : Frame .importDecls .program [.scillaVersion, .number (str! "0")] [.contract, .customIdentifier (str! "C"), .openParen, .closeParen] := by
  intro w v d
  try (cases v with | mk x p q => ?_)
  simp only [List.map_cons, List.map_nil, List.nil_append, List.append_nil, List.cons_append]
  obtain ⟨_, hsContract⟩ := sContract
  obtain ⟨_, hsInt⟩ := sInt
  exact ⟨_, .program (w3 := []) (by word) hsInt (.optSome d) .optNone hsContract, by occ5⟩

theorem frame_metaId : Frame .metaId .remaining [] [] := by
  intro w v d
  try (cases v with | mk x p q => ?_)
  simp only [List.map_cons, List.map_nil, List.nil_append, List.append_nil, List.cons_append]
  exact ⟨_, .remGeneric (by word) d .starNil, by occ5⟩

theorem frame_varId : Frame .varId .atomic [] [] := by
  intro w v d
  try (cases v with | mk x p q => ?_)
  simp only [List.map_cons, List.map_nil, List.nil_append, List.append_nil, List.cons_append]
  exact ⟨_, .atomicVar d, by occ5⟩

theorem frame_builtinArgs : Frame .builtinArgs .fullExpr [.builtin, .identifier (str! "x")] [] := by
  intro w v d
  try (cases v with | mk x p q => ?_)
  simp only [List.map_cons, List.map_nil, List.nil_append, List.append_nil, List.cons_append]
  obtain ⟨_, hsReg⟩ := sReg
  exact ⟨_, .exprBuiltin (w2 := []) (by word) hsReg .optNone d, by occ5⟩

theorem frame_remaining : Frame .remaining .scillaType [] [] := by
  intro w v d
  try (cases v with | mk x p q => ?_)
  simp only [List.map_nil, List.nil_append, List.append_nil]
  exact ⟨_, .typeRem d, by occ5⟩

theorem frame_funSig : Frame .funSig .scillaType [] [] := by
  intro w v d
  try (cases v with | mk x p q => ?_)
  simp only [List.map_nil, List.nil_append, List.append_nil]
  exact ⟨_, .typeFun d, by occ5⟩

theorem frame_scillaType : Frame .scillaType .typeAnn [.colon] [] := by
  intro w v d
  try (cases v with | mk x p q => ?_)
  simp only [List.map_cons, List.map_nil, List.nil_append, List.append_nil, List.cons_append]
  exact ⟨_, .typeAnn (by word) d, by occ5⟩

theorem frame_typeArg : Frame .typeArg .remaining [.customIdentifier (str! "C")] [] := by
  intro w v d
  try (cases v with | mk x p q => ?_)
  simp only [List.map_cons, List.map_nil, List.nil_append, List.append_nil, List.cons_append]
  obtain ⟨_, hsMeta⟩ := sMeta
  exact ⟨_, .remGeneric (by word) hsMeta (.starCons d .starNil), by occ5⟩

theorem frame_addressType : Frame .addressType .remaining [] [] := by
  intro w v d
  try (cases v with | mk x p q => ?_)
  simp only [List.map_nil, List.nil_append, List.append_nil]
  exact ⟨_, .remAddress d, by occ5⟩

theorem frame_addressFieldList : Frame .addressFieldList .addressType [.customIdentifier (str! "C"), .with_, .contract] [.end_] := by
  intro w v d
  obtain ⟨_, hsName⟩ := sName
  simp only [List.map_cons, List.map_nil, List.nil_append, List.cons_append]
  refine ⟨_, .addrContract (by word) hsName (.optSome d), ?_⟩
  have e : rv .addressFieldList v = .vec (lWNodeAddressTypeField v) := by rw [lWNodeAddressTypeField_eq]; rfl
  rw [e]
  exact .node (List.Mem.head _) (.node (List.Mem.tail _ (List.Mem.tail _ (List.Mem.head _))) .refl)

theorem frame_nextAddressField : Frame .nextAddressField .addressFieldList [.field, .identifier (str! "x"), .colon, .customIdentifier (str! "C")] [] := by
  intro w v d
  try (cases v with | mk x p q => ?_)
  simp only [List.map_cons, List.map_nil, List.nil_append, List.append_nil, List.cons_append]
  obtain ⟨_, hsAField⟩ := sAField
  exact ⟨_, .addrFieldList (by word) hsAField (.starCons d .starNil), by occ5⟩

theorem frame_addressField : Frame .addressField .addressFieldList [] [] := by
  intro w v d
  try (cases v with | mk x p q => ?_)
  simp only [List.map_cons, List.map_nil, List.nil_append, List.append_nil, List.cons_append]
  exact ⟨_, .addrFieldList (by word) d .starNil, by occ5⟩

theorem frame_mapKey : Frame .mapKey .remaining [.map] [.customIdentifier (str! "C")] := by
  intro w v d
  try (cases v with | mk x p q => ?_)
  simp only [List.map_cons, List.map_nil, List.nil_append, List.append_nil, List.cons_append]
  obtain ⟨_, hsVal⟩ := sVal
  exact ⟨_, .remMap (by word) d hsVal, by occ5⟩

theorem frame_mapValue : Frame .mapValue .remaining [.map, .customIdentifier (str! "C")] [] := by
  intro w v d
  try (cases v with | mk x p q => ?_)
  simp only [List.map_cons, List.map_nil, List.nil_append, List.append_nil, List.cons_append]
  obtain ⟨_, hsKey⟩ := sKey
  exact ⟨_, .remMap (by word) hsKey d, by occ5⟩

theorem frame_mapValueArgs : Frame .mapValueArgs .mapValueAllowing [.customIdentifier (str! "C")] [] := by
  intro w v d
  try (cases v with | mk x p q => ?_)
  simp only [List.map_cons, List.map_nil, List.nil_append, List.append_nil, List.cons_append]
  obtain ⟨_, hsMeta⟩ := sMeta
  exact ⟨_, .mvWithArgs (by word) hsMeta (.plusIntro d .starNil), by occ5⟩

theorem frame_mapValueAllowing : Frame .mapValueAllowing .mapValue [.openParen] [.closeParen] := by
  intro w v d
  try (cases v with | mk x p q => ?_)
  simp only [List.map_cons, List.map_nil, List.nil_append, List.append_nil, List.cons_append]
  exact ⟨_, .valParen (by word) d, by occ5⟩

theorem frame_libraryDef : Frame .libraryDef .program [.scillaVersion, .number (str! "0")] [.contract, .customIdentifier (str! "C"), .openParen, .closeParen] := by
  intro w v d
  try (cases v with | mk x p q => ?_)
  simp only [List.map_cons, List.map_nil, List.nil_append, List.append_nil, List.cons_append]
  obtain ⟨_, hsContract⟩ := sContract
  obtain ⟨_, hsInt⟩ := sInt
  exact ⟨_, .program (w2 := []) (by word) hsInt .optNone (.optSome d) hsContract, by occ5⟩

theorem frame_librarySingle : Frame .librarySingle .libraryDef [.library, .customIdentifier (str! "C")] [] := by
  intro w v d
  try (cases v with | mk x p q => ?_)
  simp only [List.map_cons, List.map_nil, List.nil_append, List.append_nil, List.cons_append]
  obtain ⟨_, hsName⟩ := sName
  exact ⟨_, .libraryDef (by word) hsName (.starCons d .starNil), by occ5⟩

theorem frame_typedId : Frame .typedId .paramPair [] [] := by
  intro w v d
  try (cases v with | mk x p q => ?_)
  simp only [List.map_nil, List.nil_append, List.append_nil]
  exact ⟨_, .paramPair d, by occ5⟩

theorem frame_typeAnn : Frame .typeAnn .typedId [.identifier (str! "x")] [] := by
  intro w v d
  try (cases v with | mk x p q => ?_)
  simp only [List.map_cons, List.map_nil, List.nil_append, List.append_nil, List.cons_append]
  obtain ⟨_, hsReg⟩ := sReg
  exact ⟨_, .typedId (by word) hsReg d, by occ5⟩

theorem frame_typeAlt : Frame .typeAlt .librarySingle [.type, .customIdentifier (str! "C"), .equals] [] := by
  intro w v d
  try (cases v with | mk x p q => ?_)
  simp only [List.map_cons, List.map_nil, List.nil_append, List.append_nil, List.cons_append]
  obtain ⟨_, hsName⟩ := sName
  exact ⟨_, .libTypeAlts (by word) hsName (.plusIntro d .starNil), by occ5⟩

theorem frame_contractTypeArgs : Frame .contractTypeArgs .fullExpr [.customIdentifier (str! "C")] [] := by
  intro w v d
  try (cases v with | mk x p q => ?_)
  simp only [List.map_cons, List.map_nil, List.nil_append, List.append_nil, List.cons_append]
  obtain ⟨_, hsMeta⟩ := sMeta
  exact ⟨_, .exprConstr (w3 := []) (by word) hsMeta (.optSome d) .starNil, by occ5⟩

theorem frame_fullExpr : Frame .fullExpr .contractField [.field, .identifier (str! "x"), .colon, .customIdentifier (str! "C"), .equals] [] := by
  intro w v d
  try (cases v with | mk x p q => ?_)
  simp only [List.map_cons, List.map_nil, List.nil_append, List.append_nil, List.cons_append]
  obtain ⟨_, hsTyped⟩ := sTyped
  exact ⟨_, .contractField (by word) hsTyped d, by occ5⟩

theorem frame_pmExprClause : Frame .pmExprClause .fullExpr [.match_, .identifier (str! "x"), .with_] [.end_] := by
  intro w v d
  try (cases v with | mk x p q => ?_)
  simp only [List.map_cons, List.map_nil, List.nil_append, List.append_nil, List.cons_append]
  obtain ⟨_, hsVar⟩ := sVar
  exact ⟨_, .exprMatch (by word) hsVar (.plusIntro d .starNil), by occ5⟩

theorem frame_pattern : Frame .pattern .pmExprClause [.pipe] [.doubleArrow, .identifier (str! "x")] := by
  intro w v d
  try (cases v with | mk x p q => ?_)
  simp only [List.map_cons, List.map_nil, List.nil_append, List.append_nil, List.cons_append]
  obtain ⟨_, hsExpr⟩ := sExpr
  exact ⟨_, .pmExprClause (by word) d hsExpr, by occ5⟩

theorem frame_argPattern : Frame .argPattern .pattern [.customIdentifier (str! "C")] [] := by
  intro w v d
  try (cases v with | mk x p q => ?_)
  simp only [List.map_cons, List.map_nil, List.nil_append, List.append_nil, List.cons_append]
  obtain ⟨_, hsMeta⟩ := sMeta
  exact ⟨_, .patConstr (by word) hsMeta (.starCons d .starNil), by occ5⟩

theorem frame_nextMessage : Frame .nextMessage .fullExpr [.openBrace, .identifier (str! "x"), .colon, .identifier (str! "x")] [.closeBrace] := by
  intro w v d
  try (cases v with | mk x p q => ?_)
  simp only [List.map_cons, List.map_nil, List.nil_append, List.append_nil, List.cons_append]
  obtain ⟨_, hsEntry⟩ := sEntry
  exact ⟨_, .exprMessage (by word) hsEntry (.starCons d .starNil), by occ5⟩

theorem frame_messageEntry : Frame .messageEntry .fullExpr [.openBrace] [.closeBrace] := by
  intro w v d
  try (cases v with | mk x p q => ?_)
  simp only [List.map_cons, List.map_nil, List.nil_append, List.append_nil, List.cons_append]
  exact ⟨_, .exprMessage (w2 := []) (by word) d .starNil, by occ5⟩

theorem frame_atomic : Frame .atomic .fullExpr [] [] := by
  intro w v d
  try (cases v with | mk x p q => ?_)
  simp only [List.map_nil, List.nil_append, List.append_nil]
  exact ⟨_, .exprAtomic d, by occ5⟩

theorem frame_valueLit : Frame .valueLit .atomic [] [] := by
  intro w v d
  try (cases v with | mk x p q => ?_)
  simp only [List.map_nil, List.nil_append, List.append_nil]
  exact ⟨_, .atomicLit d, by occ5⟩

theorem frame_statement : Frame .statement .stmtBlock [] [] := by
  intro w v d
  try (cases v with | mk x p q => ?_)
  simp only [List.map_cons, List.map_nil, List.nil_append, List.append_nil, List.cons_append]
  exact ⟨_, .stmtBlock (by word) d .starNil, by occ5⟩

theorem frame_nextStatement : Frame .nextStatement .stmtBlock [.accept] [] := by
  intro w v d
  try (cases v with | mk x p q => ?_)
  simp only [List.map_cons, List.map_nil, List.nil_append, List.append_nil, List.cons_append]
  exact ⟨_, .stmtBlock (by word) (.stAccept rfl) (.starCons d .starNil), by occ5⟩

theorem frame_stmtBlock : Frame .stmtBlock .compBody [] [.end_] := by
  intro w v d
  try (cases v with | mk x p q => ?_)
  simp only [List.map_cons, List.map_nil, List.nil_append, List.append_nil, List.cons_append]
  exact ⟨_, .compBody (by word) (.optSome d), by occ5⟩

theorem frame_bcFetchArgs : Frame .bcFetchArgs .statement [.identifier (str! "x"), .leftArrow, .ampersand, .customIdentifier (str! "C")] [] := by
  intro w v d
  try (cases v with | mk x p q => ?_)
  simp only [List.map_cons, List.map_nil, List.nil_append, List.append_nil, List.cons_append]
  obtain ⟨_, hsName⟩ := sName
  obtain ⟨_, hsReg⟩ := sReg
  exact ⟨_, .stReadBC (by word) hsReg hsName (.optSome d), by occ5⟩

theorem frame_componentId : Frame .componentId .transDef [.transition] [.openParen, .closeParen, .end_] := by
  intro w v d
  try (cases v with | mk x p q => ?_)
  simp only [List.map_cons, List.map_nil, List.nil_append, List.append_nil, List.cons_append]
  obtain ⟨_, hsBody⟩ := sBody
  obtain ⟨_, hsParams⟩ := sParams
  exact ⟨_, .transDef (by word) d hsParams hsBody, by occ5⟩

theorem frame_pmClause : Frame .pmClause .statement [.match_, .identifier (str! "x"), .with_] [.end_] := by
  intro w v d
  try (cases v with | mk x p q => ?_)
  simp only [List.map_cons, List.map_nil, List.nil_append, List.append_nil, List.cons_append]
  obtain ⟨_, hsVar⟩ := sVar
  exact ⟨_, .stMatch (by word) hsVar (.plusIntro d .starNil), by occ5⟩

theorem frame_remoteFetch : Frame .remoteFetch .statement [] [] := by
  intro w v d
  try (cases v with | mk x p q => ?_)
  simp only [List.map_nil, List.nil_append, List.append_nil]
  exact ⟨_, .stRemote d, by occ5⟩

theorem frame_mapAccess : Frame .mapAccess .statement [.delete, .identifier (str! "x")] [] := by
  intro w v d
  try (cases v with | mk x p q => ?_)
  simp only [List.map_cons, List.map_nil, List.nil_append, List.append_nil, List.cons_append]
  obtain ⟨_, hsReg⟩ := sReg
  exact ⟨_, .stMapDelete (by word) hsReg (.plusIntro d .starNil), by occ5⟩

theorem frame_paramPair : Frame .paramPair .compParams [.openParen] [.closeParen] := by
  intro w v d
  try (cases v with | mk x p q => ?_)
  simp only [List.map_cons, List.map_nil, List.nil_append, List.append_nil, List.cons_append]
  exact ⟨_, .compParams (w2 := []) (by word) (.optSome d) .starNil, by occ5⟩

theorem frame_nextParamPair : Frame .nextParamPair .compParams [.openParen] [.closeParen] := by
  intro w v d
  try (cases v with | mk x p q => ?_)
  simp only [List.map_cons, List.map_nil, List.nil_append, List.append_nil, List.cons_append]
  exact ⟨_, .compParams (w1 := []) (by word) .optNone (.starCons d .starNil), by occ5⟩

theorem frame_compParams : Frame .compParams .contractDef [.contract, .customIdentifier (str! "C")] [] := by
  intro w v d
  try (cases v with | mk x p q => ?_)
  simp only [List.map_cons, List.map_nil, List.nil_append, List.append_nil, List.cons_append]
  obtain ⟨_, hsName⟩ := sName
  exact ⟨_, .contractDef (w3 := []) (w4 := []) (w5 := []) (by word) hsName d .optNone .starNil .starNil, by occ5⟩

theorem frame_compDef : Frame .compDef .contractDef [.contract, .customIdentifier (str! "C"), .openParen, .closeParen] [] := by
  intro w v d
  try (cases v with | mk x p q => ?_)
  simp only [List.map_cons, List.map_nil, List.nil_append, List.append_nil, List.cons_append]
  obtain ⟨_, hsName⟩ := sName
  obtain ⟨_, hsParams⟩ := sParams
  exact ⟨_, .contractDef (w3 := []) (w4 := []) (by word) hsName hsParams .optNone .starNil (.starCons d .starNil), by occ5⟩

theorem frame_transDef : Frame .transDef .compDef [] [] := by
  intro w v d
  try (cases v with | mk x p q => ?_)
  simp only [List.map_nil, List.nil_append, List.append_nil]
  exact ⟨_, .compTransition d, by occ5⟩

theorem frame_procDef : Frame .procDef .compDef [] [] := by
  intro w v d
  try (cases v with | mk x p q => ?_)
  simp only [List.map_nil, List.nil_append, List.append_nil]
  exact ⟨_, .compProcedure d, by occ5⟩

theorem frame_compBody : Frame .compBody .transDef [.transition, .customIdentifier (str! "C"), .openParen, .closeParen] [] := by
  intro w v d
  try (cases v with | mk x p q => ?_)
  simp only [List.map_cons, List.map_nil, List.nil_append, List.append_nil, List.cons_append]
  obtain ⟨_, hsComp⟩ := sComp
  obtain ⟨_, hsParams⟩ := sParams
  exact ⟨_, .transDef (by word) hsComp hsParams d, by occ5⟩

theorem frame_contractDef : Frame .contractDef .program [.scillaVersion, .number (str! "0")] [] := by
  intro w v d
  try (cases v with | mk x p q => ?_)
  simp only [List.map_cons, List.map_nil, List.nil_append, List.append_nil, List.cons_append]
  obtain ⟨_, hsInt⟩ := sInt
  exact ⟨_, .program (w2 := []) (w3 := []) (by word) hsInt .optNone .optNone d, by occ5⟩

theorem frame_contractField : Frame .contractField .contractDef [.contract, .customIdentifier (str! "C"), .openParen, .closeParen] [] := by
  intro w v d
  try (cases v with | mk x p q => ?_)
  simp only [List.map_cons, List.map_nil, List.nil_append, List.append_nil, List.cons_append]
  obtain ⟨_, hsName⟩ := sName
  obtain ⟨_, hsParams⟩ := sParams
  exact ⟨_, .contractDef (w3 := []) (w5 := []) (by word) hsName hsParams .optNone (.starCons d .starNil) .starNil, by occ5⟩

theorem frame_withConstraint : Frame .withConstraint .contractDef [.contract, .customIdentifier (str! "C"), .openParen, .closeParen] [] := by
  intro w v d
  try (cases v with | mk x p q => ?_)
  simp only [List.map_cons, List.map_nil, List.nil_append, List.append_nil, List.cons_append]
  obtain ⟨_, hsName⟩ := sName
  obtain ⟨_, hsParams⟩ := sParams
  exact ⟨_, .contractDef (w4 := []) (w5 := []) (by word) hsName hsParams (.optSome d) .starNil .starNil, by occ5⟩

theorem frame_hexNumber : Frame .hexNumber .valueLit [] [] := by
  intro w v d
  try (cases v with | mk x p q => ?_)
  simp only [List.map_nil, List.nil_append, List.append_nil]
  exact ⟨_, .litHex d, by occ5⟩

theorem frame_signedInt : Frame .signedInt .program [.scillaVersion] [.contract, .customIdentifier (str! "C"), .openParen, .closeParen] := by
  intro w v d
  try (cases v with | mk x p q => ?_)
  simp only [List.map_cons, List.map_nil, List.nil_append, List.append_nil, List.cons_append]
  obtain ⟨_, hsContract⟩ := sContract
  exact ⟨_, .program (w2 := []) (w3 := []) (by word) d .optNone .optNone hsContract, by occ5⟩

theorem frame_regularId : Frame .regularId .varId [] [] := by
  intro w v d
  try (cases v with | mk x p q => ?_)
  simp only [List.map_nil, List.nil_append, List.append_nil]
  exact ⟨_, .varName d, by occ5⟩

theorem frame_specialId : Frame .specialId .varId [] [] := by
  intro w v d
  try (cases v with | mk x p q => ?_)
  simp only [List.map_nil, List.nil_append, List.append_nil]
  exact ⟨_, .varSpecial d, by occ5⟩

theorem frame_customId : Frame .customId .typeName [] [] := by
  intro w v d
  try (cases v with | mk x p q => ?_)
  simp only [List.map_nil, List.nil_append, List.append_nil]
  exact ⟨_, .typeNameCustom d, by occ5⟩

theorem frame_templateId : Frame .templateId .remaining [] [] := by
  intro w v d
  try (cases v with | mk x p q => ?_)
  simp only [List.map_nil, List.nil_append, List.append_nil]
  exact ⟨_, .remTypeVar d, by occ5⟩

theorem frame_stringLit : Frame .stringLit .valueLit [] [] := by
  intro w v d
  try (cases v with | mk x p q => ?_)
  simp only [List.map_nil, List.nil_append, List.append_nil]
  exact ⟨_, .litString d, by occ5⟩

/-- what stands before a phrase of the category -/
def frameBefore : NT → List Token
  | .byteString => [.scillaVersion, .number (str! "0"), .contract, .customIdentifier (str! "C"), .openParen, .identifier (str! "x"), .colon]
  | .typeName => [.scillaVersion, .number (str! "0"), .contract, .customIdentifier (str! "C"), .openParen, .identifier (str! "x"), .colon]
  | .importedName => [.scillaVersion, .number (str! "0"), .import_]
  | .importDecls => [.scillaVersion, .number (str! "0")]
  | .metaId => [.scillaVersion, .number (str! "0"), .contract, .customIdentifier (str! "C"), .openParen, .identifier (str! "x"), .colon]
  | .varId => [.scillaVersion, .number (str! "0"), .contract, .customIdentifier (str! "C"), .openParen, .closeParen, .field, .identifier (str! "x"), .colon, .customIdentifier (str! "C"), .equals]
  | .builtinArgs => [.scillaVersion, .number (str! "0"), .contract, .customIdentifier (str! "C"), .openParen, .closeParen, .field, .identifier (str! "x"), .colon, .customIdentifier (str! "C"), .equals, .builtin, .identifier (str! "x")]
  | .remaining => [.scillaVersion, .number (str! "0"), .contract, .customIdentifier (str! "C"), .openParen, .identifier (str! "x"), .colon]
  | .funSig => [.scillaVersion, .number (str! "0"), .contract, .customIdentifier (str! "C"), .openParen, .identifier (str! "x"), .colon]
  | .scillaType => [.scillaVersion, .number (str! "0"), .contract, .customIdentifier (str! "C"), .openParen, .identifier (str! "x"), .colon]
  | .typeArg => [.scillaVersion, .number (str! "0"), .contract, .customIdentifier (str! "C"), .openParen, .identifier (str! "x"), .colon, .customIdentifier (str! "C")]
  | .addressType => [.scillaVersion, .number (str! "0"), .contract, .customIdentifier (str! "C"), .openParen, .identifier (str! "x"), .colon]
  | .addressFieldList => [.scillaVersion, .number (str! "0"), .contract, .customIdentifier (str! "C"), .openParen, .identifier (str! "x"), .colon, .customIdentifier (str! "C"), .with_, .contract]
  | .nextAddressField => [.scillaVersion, .number (str! "0"), .contract, .customIdentifier (str! "C"), .openParen, .identifier (str! "x"), .colon, .customIdentifier (str! "C"), .with_, .contract, .field, .identifier (str! "x"), .colon, .customIdentifier (str! "C")]
  | .addressField => [.scillaVersion, .number (str! "0"), .contract, .customIdentifier (str! "C"), .openParen, .identifier (str! "x"), .colon, .customIdentifier (str! "C"), .with_, .contract]
  | .mapKey => [.scillaVersion, .number (str! "0"), .contract, .customIdentifier (str! "C"), .openParen, .identifier (str! "x"), .colon, .map]
  | .mapValue => [.scillaVersion, .number (str! "0"), .contract, .customIdentifier (str! "C"), .openParen, .identifier (str! "x"), .colon, .map, .customIdentifier (str! "C")]
  | .mapValueArgs => [.scillaVersion, .number (str! "0"), .contract, .customIdentifier (str! "C"), .openParen, .identifier (str! "x"), .colon, .map, .customIdentifier (str! "C"), .openParen, .customIdentifier (str! "C")]
  | .mapValueAllowing => [.scillaVersion, .number (str! "0"), .contract, .customIdentifier (str! "C"), .openParen, .identifier (str! "x"), .colon, .map, .customIdentifier (str! "C"), .openParen]
  | .libraryDef => [.scillaVersion, .number (str! "0")]
  | .librarySingle => [.scillaVersion, .number (str! "0"), .library, .customIdentifier (str! "C")]
  | .typedId => [.scillaVersion, .number (str! "0"), .contract, .customIdentifier (str! "C"), .openParen]
  | .typeAnn => [.scillaVersion, .number (str! "0"), .contract, .customIdentifier (str! "C"), .openParen, .identifier (str! "x")]
  | .typeAlt => [.scillaVersion, .number (str! "0"), .library, .customIdentifier (str! "C"), .type, .customIdentifier (str! "C"), .equals]
  | .contractTypeArgs => [.scillaVersion, .number (str! "0"), .contract, .customIdentifier (str! "C"), .openParen, .closeParen, .field, .identifier (str! "x"), .colon, .customIdentifier (str! "C"), .equals, .customIdentifier (str! "C")]
  | .fullExpr => [.scillaVersion, .number (str! "0"), .contract, .customIdentifier (str! "C"), .openParen, .closeParen, .field, .identifier (str! "x"), .colon, .customIdentifier (str! "C"), .equals]
  | .pmExprClause => [.scillaVersion, .number (str! "0"), .contract, .customIdentifier (str! "C"), .openParen, .closeParen, .field, .identifier (str! "x"), .colon, .customIdentifier (str! "C"), .equals, .match_, .identifier (str! "x"), .with_]
  | .pattern => [.scillaVersion, .number (str! "0"), .contract, .customIdentifier (str! "C"), .openParen, .closeParen, .field, .identifier (str! "x"), .colon, .customIdentifier (str! "C"), .equals, .match_, .identifier (str! "x"), .with_, .pipe]
  | .argPattern => [.scillaVersion, .number (str! "0"), .contract, .customIdentifier (str! "C"), .openParen, .closeParen, .field, .identifier (str! "x"), .colon, .customIdentifier (str! "C"), .equals, .match_, .identifier (str! "x"), .with_, .pipe, .customIdentifier (str! "C")]
  | .nextMessage => [.scillaVersion, .number (str! "0"), .contract, .customIdentifier (str! "C"), .openParen, .closeParen, .field, .identifier (str! "x"), .colon, .customIdentifier (str! "C"), .equals, .openBrace, .identifier (str! "x"), .colon, .identifier (str! "x")]
  | .messageEntry => [.scillaVersion, .number (str! "0"), .contract, .customIdentifier (str! "C"), .openParen, .closeParen, .field, .identifier (str! "x"), .colon, .customIdentifier (str! "C"), .equals, .openBrace]
  | .atomic => [.scillaVersion, .number (str! "0"), .contract, .customIdentifier (str! "C"), .openParen, .closeParen, .field, .identifier (str! "x"), .colon, .customIdentifier (str! "C"), .equals]
  | .valueLit => [.scillaVersion, .number (str! "0"), .contract, .customIdentifier (str! "C"), .openParen, .closeParen, .field, .identifier (str! "x"), .colon, .customIdentifier (str! "C"), .equals]
  | .statement => [.scillaVersion, .number (str! "0"), .contract, .customIdentifier (str! "C"), .openParen, .closeParen, .transition, .customIdentifier (str! "C"), .openParen, .closeParen]
  | .nextStatement => [.scillaVersion, .number (str! "0"), .contract, .customIdentifier (str! "C"), .openParen, .closeParen, .transition, .customIdentifier (str! "C"), .openParen, .closeParen, .accept]
  | .stmtBlock => [.scillaVersion, .number (str! "0"), .contract, .customIdentifier (str! "C"), .openParen, .closeParen, .transition, .customIdentifier (str! "C"), .openParen, .closeParen]
  | .bcFetchArgs => [.scillaVersion, .number (str! "0"), .contract, .customIdentifier (str! "C"), .openParen, .closeParen, .transition, .customIdentifier (str! "C"), .openParen, .closeParen, .identifier (str! "x"), .leftArrow, .ampersand, .customIdentifier (str! "C")]
  | .componentId => [.scillaVersion, .number (str! "0"), .contract, .customIdentifier (str! "C"), .openParen, .closeParen, .transition]
  | .pmClause => [.scillaVersion, .number (str! "0"), .contract, .customIdentifier (str! "C"), .openParen, .closeParen, .transition, .customIdentifier (str! "C"), .openParen, .closeParen, .match_, .identifier (str! "x"), .with_]
  | .remoteFetch => [.scillaVersion, .number (str! "0"), .contract, .customIdentifier (str! "C"), .openParen, .closeParen, .transition, .customIdentifier (str! "C"), .openParen, .closeParen]
  | .mapAccess => [.scillaVersion, .number (str! "0"), .contract, .customIdentifier (str! "C"), .openParen, .closeParen, .transition, .customIdentifier (str! "C"), .openParen, .closeParen, .delete, .identifier (str! "x")]
  | .paramPair => [.scillaVersion, .number (str! "0"), .contract, .customIdentifier (str! "C"), .openParen]
  | .nextParamPair => [.scillaVersion, .number (str! "0"), .contract, .customIdentifier (str! "C"), .openParen]
  | .compParams => [.scillaVersion, .number (str! "0"), .contract, .customIdentifier (str! "C")]
  | .compDef => [.scillaVersion, .number (str! "0"), .contract, .customIdentifier (str! "C"), .openParen, .closeParen]
  | .transDef => [.scillaVersion, .number (str! "0"), .contract, .customIdentifier (str! "C"), .openParen, .closeParen]
  | .procDef => [.scillaVersion, .number (str! "0"), .contract, .customIdentifier (str! "C"), .openParen, .closeParen]
  | .compBody => [.scillaVersion, .number (str! "0"), .contract, .customIdentifier (str! "C"), .openParen, .closeParen, .transition, .customIdentifier (str! "C"), .openParen, .closeParen]
  | .contractDef => [.scillaVersion, .number (str! "0")]
  | .contractField => [.scillaVersion, .number (str! "0"), .contract, .customIdentifier (str! "C"), .openParen, .closeParen]
  | .withConstraint => [.scillaVersion, .number (str! "0"), .contract, .customIdentifier (str! "C"), .openParen, .closeParen]
  | .hexNumber => [.scillaVersion, .number (str! "0"), .contract, .customIdentifier (str! "C"), .openParen, .closeParen, .field, .identifier (str! "x"), .colon, .customIdentifier (str! "C"), .equals]
  | .signedInt => [.scillaVersion]
  | .regularId => [.scillaVersion, .number (str! "0"), .contract, .customIdentifier (str! "C"), .openParen, .closeParen, .field, .identifier (str! "x"), .colon, .customIdentifier (str! "C"), .equals]
  | .specialId => [.scillaVersion, .number (str! "0"), .contract, .customIdentifier (str! "C"), .openParen, .closeParen, .field, .identifier (str! "x"), .colon, .customIdentifier (str! "C"), .equals]
  | .customId => [.scillaVersion, .number (str! "0"), .contract, .customIdentifier (str! "C"), .openParen, .identifier (str! "x"), .colon]
  | .templateId => [.scillaVersion, .number (str! "0"), .contract, .customIdentifier (str! "C"), .openParen, .identifier (str! "x"), .colon]
  | .stringLit => [.scillaVersion, .number (str! "0"), .contract, .customIdentifier (str! "C"), .openParen, .closeParen, .field, .identifier (str! "x"), .colon, .customIdentifier (str! "C"), .equals]
  | .program => []
  | _ => []

/-- what stands after it -/
def frameAfter : NT → List Token
  | .byteString => [.closeParen]
  | .typeName => [.closeParen]
  | .importedName => [.contract, .customIdentifier (str! "C"), .openParen, .closeParen]
  | .importDecls => [.contract, .customIdentifier (str! "C"), .openParen, .closeParen]
  | .metaId => [.closeParen]
  | .varId => []
  | .builtinArgs => []
  | .remaining => [.closeParen]
  | .funSig => [.closeParen]
  | .scillaType => [.closeParen]
  | .typeArg => [.closeParen]
  | .addressType => [.closeParen]
  | .addressFieldList => [.end_, .closeParen]
  | .nextAddressField => [.end_, .closeParen]
  | .addressField => [.end_, .closeParen]
  | .mapKey => [.customIdentifier (str! "C"), .closeParen]
  | .mapValue => [.closeParen]
  | .mapValueArgs => [.closeParen, .closeParen]
  | .mapValueAllowing => [.closeParen, .closeParen]
  | .libraryDef => [.contract, .customIdentifier (str! "C"), .openParen, .closeParen]
  | .librarySingle => [.contract, .customIdentifier (str! "C"), .openParen, .closeParen]
  | .typedId => [.closeParen]
  | .typeAnn => [.closeParen]
  | .typeAlt => [.contract, .customIdentifier (str! "C"), .openParen, .closeParen]
  | .contractTypeArgs => []
  | .fullExpr => []
  | .pmExprClause => [.end_]
  | .pattern => [.doubleArrow, .identifier (str! "x"), .end_]
  | .argPattern => [.doubleArrow, .identifier (str! "x"), .end_]
  | .nextMessage => [.closeBrace]
  | .messageEntry => [.closeBrace]
  | .atomic => []
  | .valueLit => []
  | .statement => [.end_]
  | .nextStatement => [.end_]
  | .stmtBlock => [.end_]
  | .bcFetchArgs => [.end_]
  | .componentId => [.openParen, .closeParen, .end_]
  | .pmClause => [.end_, .end_]
  | .remoteFetch => [.end_]
  | .mapAccess => [.end_]
  | .paramPair => [.closeParen]
  | .nextParamPair => [.closeParen]
  | .compParams => []
  | .compDef => []
  | .transDef => []
  | .procDef => []
  | .compBody => []
  | .contractDef => []
  | .contractField => []
  | .withConstraint => []
  | .hexNumber => []
  | .signedInt => [.contract, .customIdentifier (str! "C"), .openParen, .closeParen]
  | .regularId => []
  | .specialId => []
  | .customId => [.closeParen]
  | .templateId => [.closeParen]
  | .stringLit => []
  | .program => []
  | _ => []

/-- every category is used in a program -/
theorem frame_program (n : NT) (hn : n.base = true) : Frame n .program (frameBefore n) (frameAfter n) := by
  cases n
  case byteString => exact (((((((((frame_byteString).trans frame_typeName).trans frame_metaId).trans frame_remaining).trans frame_scillaType).trans frame_typeAnn).trans frame_typedId).trans frame_paramPair).trans frame_compParams).trans frame_contractDef
  case typeName => exact ((((((((frame_typeName).trans frame_metaId).trans frame_remaining).trans frame_scillaType).trans frame_typeAnn).trans frame_typedId).trans frame_paramPair).trans frame_compParams).trans frame_contractDef
  case importedName => exact (frame_importedName).trans frame_importDecls
  case importDecls => exact frame_importDecls
  case metaId => exact (((((((frame_metaId).trans frame_remaining).trans frame_scillaType).trans frame_typeAnn).trans frame_typedId).trans frame_paramPair).trans frame_compParams).trans frame_contractDef
  case varId => exact ((((frame_varId).trans frame_atomic).trans frame_fullExpr).trans frame_contractField).trans frame_contractDef
  case builtinArgs => exact (((frame_builtinArgs).trans frame_fullExpr).trans frame_contractField).trans frame_contractDef
  case remaining => exact ((((((frame_remaining).trans frame_scillaType).trans frame_typeAnn).trans frame_typedId).trans frame_paramPair).trans frame_compParams).trans frame_contractDef
  case funSig => exact ((((((frame_funSig).trans frame_scillaType).trans frame_typeAnn).trans frame_typedId).trans frame_paramPair).trans frame_compParams).trans frame_contractDef
  case scillaType => exact (((((frame_scillaType).trans frame_typeAnn).trans frame_typedId).trans frame_paramPair).trans frame_compParams).trans frame_contractDef
  case typeArg => exact (((((((frame_typeArg).trans frame_remaining).trans frame_scillaType).trans frame_typeAnn).trans frame_typedId).trans frame_paramPair).trans frame_compParams).trans frame_contractDef
  case addressType => exact (((((((frame_addressType).trans frame_remaining).trans frame_scillaType).trans frame_typeAnn).trans frame_typedId).trans frame_paramPair).trans frame_compParams).trans frame_contractDef
  case addressFieldList => exact ((((((((frame_addressFieldList).trans frame_addressType).trans frame_remaining).trans frame_scillaType).trans frame_typeAnn).trans frame_typedId).trans frame_paramPair).trans frame_compParams).trans frame_contractDef
  case nextAddressField => exact (((((((((frame_nextAddressField).trans frame_addressFieldList).trans frame_addressType).trans frame_remaining).trans frame_scillaType).trans frame_typeAnn).trans frame_typedId).trans frame_paramPair).trans frame_compParams).trans frame_contractDef
  case addressField => exact (((((((((frame_addressField).trans frame_addressFieldList).trans frame_addressType).trans frame_remaining).trans frame_scillaType).trans frame_typeAnn).trans frame_typedId).trans frame_paramPair).trans frame_compParams).trans frame_contractDef
  case mapKey => exact (((((((frame_mapKey).trans frame_remaining).trans frame_scillaType).trans frame_typeAnn).trans frame_typedId).trans frame_paramPair).trans frame_compParams).trans frame_contractDef
  case mapValue => exact (((((((frame_mapValue).trans frame_remaining).trans frame_scillaType).trans frame_typeAnn).trans frame_typedId).trans frame_paramPair).trans frame_compParams).trans frame_contractDef
  case mapValueArgs => exact (((((((((frame_mapValueArgs).trans frame_mapValueAllowing).trans frame_mapValue).trans frame_remaining).trans frame_scillaType).trans frame_typeAnn).trans frame_typedId).trans frame_paramPair).trans frame_compParams).trans frame_contractDef
  case program => exact .refl _
  case libraryDef => exact frame_libraryDef
  case librarySingle => exact (frame_librarySingle).trans frame_libraryDef
  case typedId => exact (((frame_typedId).trans frame_paramPair).trans frame_compParams).trans frame_contractDef
  case typeAnn => exact ((((frame_typeAnn).trans frame_typedId).trans frame_paramPair).trans frame_compParams).trans frame_contractDef
  case typeAlt => exact ((frame_typeAlt).trans frame_librarySingle).trans frame_libraryDef
  case mapValueAllowing => exact ((((((((frame_mapValueAllowing).trans frame_mapValue).trans frame_remaining).trans frame_scillaType).trans frame_typeAnn).trans frame_typedId).trans frame_paramPair).trans frame_compParams).trans frame_contractDef
  case contractTypeArgs => exact (((frame_contractTypeArgs).trans frame_fullExpr).trans frame_contractField).trans frame_contractDef
  case fullExpr => exact ((frame_fullExpr).trans frame_contractField).trans frame_contractDef
  case pmExprClause => exact (((frame_pmExprClause).trans frame_fullExpr).trans frame_contractField).trans frame_contractDef
  case pattern => exact ((((frame_pattern).trans frame_pmExprClause).trans frame_fullExpr).trans frame_contractField).trans frame_contractDef
  case argPattern => exact (((((frame_argPattern).trans frame_pattern).trans frame_pmExprClause).trans frame_fullExpr).trans frame_contractField).trans frame_contractDef
  case nextMessage => exact (((frame_nextMessage).trans frame_fullExpr).trans frame_contractField).trans frame_contractDef
  case messageEntry => exact (((frame_messageEntry).trans frame_fullExpr).trans frame_contractField).trans frame_contractDef
  case atomic => exact (((frame_atomic).trans frame_fullExpr).trans frame_contractField).trans frame_contractDef
  case valueLit => exact ((((frame_valueLit).trans frame_atomic).trans frame_fullExpr).trans frame_contractField).trans frame_contractDef
  case statement => exact (((((frame_statement).trans frame_stmtBlock).trans frame_compBody).trans frame_transDef).trans frame_compDef).trans frame_contractDef
  case nextStatement => exact (((((frame_nextStatement).trans frame_stmtBlock).trans frame_compBody).trans frame_transDef).trans frame_compDef).trans frame_contractDef
  case stmtBlock => exact ((((frame_stmtBlock).trans frame_compBody).trans frame_transDef).trans frame_compDef).trans frame_contractDef
  case bcFetchArgs => exact ((((((frame_bcFetchArgs).trans frame_statement).trans frame_stmtBlock).trans frame_compBody).trans frame_transDef).trans frame_compDef).trans frame_contractDef
  case componentId => exact (((frame_componentId).trans frame_transDef).trans frame_compDef).trans frame_contractDef
  case pmClause => exact ((((((frame_pmClause).trans frame_statement).trans frame_stmtBlock).trans frame_compBody).trans frame_transDef).trans frame_compDef).trans frame_contractDef
  case remoteFetch => exact ((((((frame_remoteFetch).trans frame_statement).trans frame_stmtBlock).trans frame_compBody).trans frame_transDef).trans frame_compDef).trans frame_contractDef
  case mapAccess => exact ((((((frame_mapAccess).trans frame_statement).trans frame_stmtBlock).trans frame_compBody).trans frame_transDef).trans frame_compDef).trans frame_contractDef
  case paramPair => exact ((frame_paramPair).trans frame_compParams).trans frame_contractDef
  case nextParamPair => exact ((frame_nextParamPair).trans frame_compParams).trans frame_contractDef
  case compParams => exact (frame_compParams).trans frame_contractDef
  case compDef => exact (frame_compDef).trans frame_contractDef
  case transDef => exact ((frame_transDef).trans frame_compDef).trans frame_contractDef
  case procDef => exact ((frame_procDef).trans frame_compDef).trans frame_contractDef
  case compBody => exact (((frame_compBody).trans frame_transDef).trans frame_compDef).trans frame_contractDef
  case contractDef => exact frame_contractDef
  case contractField => exact (frame_contractField).trans frame_contractDef
  case withConstraint => exact (frame_withConstraint).trans frame_contractDef
  case hexNumber => exact (((((frame_hexNumber).trans frame_valueLit).trans frame_atomic).trans frame_fullExpr).trans frame_contractField).trans frame_contractDef
  case signedInt => exact frame_signedInt
  case regularId => exact (((((frame_regularId).trans frame_varId).trans frame_atomic).trans frame_fullExpr).trans frame_contractField).trans frame_contractDef
  case specialId => exact (((((frame_specialId).trans frame_varId).trans frame_atomic).trans frame_fullExpr).trans frame_contractField).trans frame_contractDef
  case customId => exact (((((((((frame_customId).trans frame_typeName).trans frame_metaId).trans frame_remaining).trans frame_scillaType).trans frame_typeAnn).trans frame_typedId).trans frame_paramPair).trans frame_compParams).trans frame_contractDef
  case templateId => exact (((((((frame_templateId).trans frame_remaining).trans frame_scillaType).trans frame_typeAnn).trans frame_typedId).trans frame_paramPair).trans frame_compParams).trans frame_contractDef
  case stringLit => exact (((((frame_stringLit).trans frame_valueLit).trans frame_atomic).trans frame_fullExpr).trans frame_contractField).trans frame_contractDef
  all_goals simp [NT.base] at hn

end Verif
