import Verif.Model.Ast
import Verif.Model.Token
/-
The published grammar, src/parser/parser.lalrpop, as a declarative specification: `Derives n w v`
says that the token word `w` can be derived from the nonterminal `n` and that `v` is the value
the semantic actions build for this derivation.  There is one constructor per production; each
cites the lines of the production.

`@L` / `@R` (start of the first, end of the last token of the production) are `startOf w` and
`stopOf w`, `mkW w x` is the `WithMetaData { node: x, start, end }` of the actions.
`X*`, `X+`, `X?` are the nonterminals `.star X`, `.plus X`, `.opt X`.

Deviations: none in the productions.  (`ValueLiteral`'s first production (line 1181) uses `@L` for
its end; at the end of a production LALRPOP resolves both to the end of the last symbol.)
-/
namespace Verif

/-- Nonterminals of the grammar. -/
inductive NT where
  | byteString | typeName | importedName | importDecls | metaId | varId | builtinArgs
  | remaining | funSig | scillaType | typeArg | addressType | addressFieldList | nextAddressField
  | addressField | mapKey | mapValue | mapValueArgs | program | libraryDef | librarySingle
  | typedId | typeAnn | typeAlt | mapValueAllowing | contractTypeArgs | fullExpr | pmExprClause
  | pattern | argPattern | nextMessage | messageEntry | atomic | valueLit | statement
  | nextStatement | stmtBlock | bcFetchArgs | componentId | pmClause | remoteFetch | mapAccess
  | paramPair | nextParamPair | compParams | compDef | transDef | procDef | compBody
  | contractDef | contractField | withConstraint
  | hexNumber | signedInt | regularId | specialId | customId | templateId | stringLit
  | star (n : NT) | plus (n : NT) | opt (n : NT)
deriving DecidableEq, Repr

/-- The type of the semantic value of each nonterminal (the type annotations of the grammar). -/
@[reducible] def Val : NT → Type
  | .byteString => NodeByteStr
  | .typeName => W NodeTypeNameIdentifier
  | .importedName => W NodeImportedName
  | .importDecls => W NodeImportDeclarations
  | .metaId => W NodeMetaIdentifier
  | .varId => W NodeVariableIdentifier
  | .builtinArgs => W NodeBuiltinArguments
  | .remaining => W NodeScillaType
  | .funSig => W NodeScillaType
  | .scillaType => W NodeScillaType
  | .typeArg => W NodeTypeArgument
  | .addressType => W NodeAddressType
  | .addressFieldList => List (W NodeAddressTypeField)
  | .nextAddressField => W NodeAddressTypeField
  | .addressField => W NodeAddressTypeField
  | .mapKey => W NodeTypeMapKey
  | .mapValue => W NodeTypeMapValue
  | .mapValueArgs => W NodeTypeMapValueArguments
  | .program => NodeProgram
  | .libraryDef => W NodeLibraryDefinition
  | .librarySingle => W NodeLibrarySingleDefinition
  | .typedId => W NodeTypedIdentifier
  | .typeAnn => W NodeTypeAnnotation
  | .typeAlt => W NodeTypeAlternativeClause
  | .mapValueAllowing => W NodeTypeMapValueAllowingTypeArguments
  | .contractTypeArgs => W NodeContractTypeArguments
  | .fullExpr => W NodeFullExpression
  | .pmExprClause => W NodePatternMatchExpressionClause
  | .pattern => W NodePattern
  | .argPattern => W NodeArgumentPattern
  | .nextMessage => W NodeMessageEntry
  | .messageEntry => W NodeMessageEntry
  | .atomic => W NodeAtomicExpression
  | .valueLit => W NodeValueLiteral
  | .statement => NodeStatement
  | .nextStatement => NodeStatement
  | .stmtBlock => W NodeStatementBlock
  | .bcFetchArgs => NodeBlockchainFetchArguments
  | .componentId => W NodeComponentId
  | .pmClause => W NodePatternMatchClause
  | .remoteFetch => NodeRemoteFetchStatement
  | .mapAccess => W NodeMapAccess
  | .paramPair => W NodeParameterPair
  | .nextParamPair => W NodeParameterPair
  | .compParams => W NodeComponentParameters
  | .compDef => W NodeComponentDefinition
  | .transDef => W NodeTransitionDefinition
  | .procDef => W NodeProcedureDefinition
  | .compBody => W NodeComponentBody
  | .contractDef => W NodeContractDefinition
  | .contractField => W NodeContractField
  | .withConstraint => W NodeWithConstraint
  | .hexNumber => W Str
  | .signedInt => W Str
  | .regularId => W Str
  | .specialId => W Str
  | .customId => W Str
  | .templateId => W Str
  | .stringLit => W Str
  | .star n => List (Val n)
  | .plus n => List (Val n)
  | .opt n => Option (Val n)

/-- `@L` of a production deriving `w`. -/
def startOf : List STok → Pos
  | [] => default
  | t :: _ => t.start

/-- End of the last token of `w`, or `p` if there is none. -/
def stopFrom (p : Pos) : List STok → Pos
  | [] => p
  | t :: ts => stopFrom t.stop ts

/-- `@R` of a production deriving `w`. -/
def stopOf (w : List STok) : Pos := stopFrom default w

/-- `WithMetaData { node: x, start: @L, end: @R }` -/
def mkW {α : Type} (w : List STok) (x : α) : W α := ⟨x, startOf w, stopOf w⟩

set_option autoImplicit true in
inductive Derives : (n : NT) → List STok → Val n → Prop where
  -- macros `X*`, `X+`, `X?`
  | starNil : Derives (.star n) [] []
  | starCons : Derives n w1 v → Derives (.star n) w2 vs → Derives (.star n) (w1 ++ w2) (v :: vs)
  | plusIntro : Derives n w1 v → Derives (.star n) w2 vs → Derives (.plus n) (w1 ++ w2) (v :: vs)
  | optNone : Derives (.opt n) [] none
  | optSome : Derives n w v → Derives (.opt n) w (some v)
  -- terminals carrying text, lines 1735-1832
  | hexNumber : w = [⟨s, .hexNumber x, e⟩] → Derives .hexNumber w (mkW w x)
  | signedInt : w = [⟨s, .number x, e⟩] → Derives .signedInt w (mkW w x)
  | regularId : w = [⟨s, .identifier x, e⟩] → Derives .regularId w (mkW w x)
  | specialId : w = [⟨s, .specialIdentifier x, e⟩] → Derives .specialId w (mkW w x)
  | customId : w = [⟨s, .customIdentifier x, e⟩] → Derives .customId w (mkW w x)
  | templateId : w = [⟨s, .templateIdentifier x, e⟩] → Derives .templateId w (mkW w x)
  | stringLit : w = [⟨s, .stringLiteral x, e⟩] → Derives .stringLit w (mkW w x)
  -- ByteString, lines 91-98
  | byteString : w = [⟨s, .byStrWithSize x, e⟩] → Derives .byteString w (.type (mkW w x))
  -- TypeNameIdentifier, lines 112-128
  | typeNameBytes : Derives .byteString w b → Derives .typeName w (mkW w (.byteStringType b))
  | typeNameEvent : w = [⟨s, .eventType, e⟩] → Derives .typeName w (mkW w .eventType)
  | typeNameCustom : Derives .customId w c →
      Derives .typeName w (mkW w (.typeOrEnumLikeIdentifier c))
  -- ImportedName, lines 142-154
  | importedRegular : Derives .typeName w n → Derives .importedName w (mkW w (.regularImport n))
  | importedAliased : w = w1 ++ ⟨s1, .as_, e1⟩ :: w2 →
      Derives .typeName w1 n → Derives .typeName w2 a →
      Derives .importedName w (mkW w (.aliasedImport n a))
  -- ImportDeclarations, lines 169-191.  In the left-recursive production `@L` stands after the
  -- previous declarations, so the recorded start is that of the last `import`.
  | importMore : w = w1 ++ ⟨s1, .import_, e1⟩ :: w2 →
      Derives .importDecls w1 prev → Derives .importedName w2 n →
      Derives .importDecls w ⟨⟨prev.node.importList ++ [n]⟩, s1, stopOf w⟩
  | importFirst : w = ⟨s1, .import_, e1⟩ :: w1 → Derives (.plus .importedName) w1 ns →
      Derives .importDecls w (mkW w ⟨ns⟩)
  -- MetaIdentifier, lines 209-230
  | metaName : Derives .typeName w n → Derives .metaId w (mkW w (.metaName n))
  | metaNamespace : w = w1 ++ ⟨s1, .dot, e1⟩ :: w2 →
      Derives .typeName w1 l → Derives .typeName w2 r →
      Derives .metaId w (mkW w (.metaNameInNamespace l r))
  | metaHexspace : w = w1 ++ ⟨s1, .dot, e1⟩ :: w2 →
      Derives .hexNumber w1 l → Derives .typeName w2 r →
      Derives .metaId w (mkW w (.metaNameInHexspace l r))
  | metaByStr : w = [⟨s, .byStr, e⟩] → Derives .metaId w (mkW w .byteString)
  -- VariableIdentifier, lines 249-267
  | varName : Derives .regularId w n → Derives .varId w (mkW w (.variableName n))
  | varSpecial : Derives .specialId w n → Derives .varId w (mkW w (.specialIdentifier n))
  | varNamespace : w = w1 ++ ⟨s1, .dot, e1⟩ :: w2 →
      Derives .typeName w1 n → Derives .regularId w2 r →
      Derives .varId w (mkW w (.variableInNamespace n r))
  -- BuiltinArguments, lines 280-309
  | builtinMore : w = w1 ++ w2 → Derives .builtinArgs w1 prev → Derives .varId w2 n →
      Derives .builtinArgs w (mkW w ⟨prev.node.arguments ++ [n]⟩)
  | builtinOne : Derives .varId w n → Derives .builtinArgs w (mkW w ⟨[n]⟩)
  | builtinUnit : w = [⟨s1, .openParen, e1⟩, ⟨s2, .closeParen, e2⟩] →
      Derives .builtinArgs w (mkW w ⟨[]⟩)
  -- RemainingTypes, lines 311-342
  | remGeneric : w = w1 ++ w2 → Derives .metaId w1 m → Derives (.star .typeArg) w2 args →
      Derives .remaining w (mkW w (.genericTypeWithArgs m args))
  | remMap : w = ⟨s1, .map, e1⟩ :: (w1 ++ w2) →
      Derives .mapKey w1 k → Derives .mapValue w2 v →
      Derives .remaining w (mkW w (.mapType k v))
  | remParen : w = ⟨s1, .openParen, e1⟩ :: (w1 ++ [⟨s2, .closeParen, e2⟩]) →
      Derives .scillaType w1 t → Derives .remaining w (mkW w (.enclosedType t))
  | remAddress : Derives .addressType w a → Derives .remaining w (mkW w (.scillaAddresseType a))
  | remForall : w = ⟨s1, .forall_, e1⟩ :: (w1 ++ ⟨s2, .dot, e2⟩ :: w2) →
      Derives .templateId w1 v → Derives .remaining w2 t →
      Derives .remaining w (mkW w (.polyFunctionType v t))
  | remTypeVar : Derives .templateId w v → Derives .remaining w (mkW w (.typeVarType v))
  -- FunctionSignature, lines 344-355
  | funSigMore : w = w1 ++ ⟨s1, .arrow, e1⟩ :: w2 →
      Derives .remaining w1 a → Derives .funSig w2 b →
      Derives .funSig w (mkW w (.functionType a b))
  | funSigLast : w = w1 ++ ⟨s1, .arrow, e1⟩ :: w2 →
      Derives .remaining w1 a → Derives .remaining w2 b →
      Derives .funSig w (mkW w (.functionType a b))
  -- ScillaType, lines 375-378
  | typeFun : Derives .funSig w t → Derives .scillaType w t
  | typeRem : Derives .remaining w t → Derives .scillaType w t
  -- TypeArgument, lines 397-428
  | argParen : w = ⟨s1, .openParen, e1⟩ :: (w1 ++ [⟨s2, .closeParen, e2⟩]) →
      Derives .scillaType w1 t → Derives .typeArg w (mkW w (.enclosedTypeArgument t))
  | argMeta : Derives .metaId w m → Derives .typeArg w (mkW w (.genericTypeArgument m))
  | argTemplate : Derives .templateId w v → Derives .typeArg w (mkW w (.templateTypeArgument v))
  | argAddress : Derives .addressType w a → Derives .typeArg w (mkW w (.addressTypeArgument a))
  | argMap : w = ⟨s1, .map, e1⟩ :: (w1 ++ w2) →
      Derives .mapKey w1 k → Derives .mapValue w2 v →
      Derives .typeArg w (mkW w (.mapTypeArgument k v))
  -- AddressType, lines 446-497
  | addrEmpty : w = w1 ++ [⟨s1, .with_, e1⟩, ⟨s2, .end_, e2⟩] → Derives .typeName w1 n →
      Derives .addressType w (mkW w (.mk n (mkW w []) []))
  | addrContract : w = w1 ++ ⟨s1, .with_, e1⟩ :: ⟨s2, .contract, e2⟩ :: (w2 ++ [⟨s3, .end_, e3⟩]) →
      Derives .typeName w1 n → Derives (.opt .addressFieldList) w2 fs →
      Derives .addressType w (mkW w (.mk n (mkW w (str! "contract")) (fs.getD [])))
  | addrLibrary : w = w1 ++ [⟨s1, .with_, e1⟩, ⟨s2, .library, e2⟩, ⟨s3, .end_, e3⟩] →
      Derives .typeName w1 n →
      Derives .addressType w (mkW w (.mk n (mkW w (str! "library")) []))
  | addrSpecial : w = w1 ++ ⟨s1, .with_, e1⟩ :: (w2 ++ [⟨s2, .end_, e2⟩]) →
      Derives .typeName w1 n → Derives .specialId w2 sp →
      Derives .addressType w (mkW w (.mk n sp []))
  -- AddressTypeFieldList, NextAddressTypeField, AddressTypeField, lines 512-540
  | addrFieldList : w = w1 ++ w2 → Derives .addressField w1 f →
      Derives (.star .nextAddressField) w2 fs → Derives .addressFieldList w (f :: fs)
  | nextAddrField : w = ⟨s1, .comma, e1⟩ :: w1 → Derives .addressField w1 f →
      Derives .nextAddressField w f
  | addrField : w = ⟨s1, .field, e1⟩ :: (w1 ++ ⟨s2, .colon, e2⟩ :: w2) →
      Derives .varId w1 i → Derives .scillaType w2 t → Derives .addressField w (mkW w (.mk i t))
  -- TypeMapKey, lines 556-581
  | keyMeta : Derives .metaId w m → Derives .mapKey w (mkW w (.genericMapKey m))
  | keyParenMeta : w = ⟨s1, .openParen, e1⟩ :: (w1 ++ [⟨s2, .closeParen, e2⟩]) →
      Derives .metaId w1 m → Derives .mapKey w (mkW w (.enclosedGenericId m))
  | keyParenAddress : w = ⟨s1, .openParen, e1⟩ :: (w1 ++ [⟨s2, .closeParen, e2⟩]) →
      Derives .addressType w1 a → Derives .mapKey w (mkW w (.enclosedAddressMapKeyType a))
  | keyAddress : Derives .addressType w a → Derives .mapKey w (mkW w (.addressMapKeyType a))
  -- TypeMapValue, lines 600-627
  | valMeta : Derives .metaId w m →
      Derives .mapValue w (mkW w (.mapValueTypeOrEnumLikeIdentifier m))
  | valMap : w = ⟨s1, .map, e1⟩ :: (w1 ++ w2) →
      Derives .mapKey w1 k → Derives .mapValue w2 v →
      Derives .mapValue w (mkW w (.mapKeyValue (mkW w (.mk k v))))
  | valParen : w = ⟨s1, .openParen, e1⟩ :: (w1 ++ [⟨s2, .closeParen, e2⟩]) →
      Derives .mapValueAllowing w1 t →
      Derives .mapValue w (mkW w (.mapValueParenthesizedType t))
  | valAddress : Derives .addressType w a → Derives .mapValue w (mkW w (.mapValueAddressType a))
  -- TypeMapValueArguments, lines 645-661
  | mvaParen : w = ⟨s1, .openParen, e1⟩ :: (w1 ++ [⟨s2, .closeParen, e2⟩]) →
      Derives .mapValueAllowing w1 t →
      Derives .mapValueArgs w (mkW w (.enclosedTypeMapValue t))
  | mvaMeta : Derives .metaId w m → Derives .mapValueArgs w (mkW w (.genericMapValueArgument m))
  | mvaMap : w = ⟨s1, .map, e1⟩ :: (w1 ++ w2) →
      Derives .mapKey w1 k → Derives .mapValue w2 v →
      Derives .mapValueArgs w (mkW w (.mapKeyValueType k v))
  -- Program, lines 680-687
  | program : w = ⟨s1, .scillaVersion, e1⟩ :: (w1 ++ (w2 ++ (w3 ++ w4))) →
      Derives .signedInt w1 ver → Derives (.opt .importDecls) w2 imps →
      Derives (.opt .libraryDef) w3 lib → Derives .contractDef w4 c →
      Derives .program w ⟨ver, imps, lib, c⟩
  -- LibraryDefinition, lines 703-714
  | libraryDef : w = ⟨s1, .library, e1⟩ :: (w1 ++ w2) →
      Derives .typeName w1 l → Derives (.star .librarySingle) w2 ds →
      Derives .libraryDef w (mkW w ⟨l, ds⟩)
  -- LibrarySingleDefinition, lines 735-781
  | libLet : w = ⟨s1, .let_, e1⟩ :: (w1 ++ (w2 ++ ⟨s2, .equals, e2⟩ :: w3)) →
      Derives .regularId w1 x → Derives (.opt .typeAnn) w2 ta → Derives .fullExpr w3 ex →
      Derives .librarySingle w (mkW w (.letDefinition x ta ex))
  | libType : w = ⟨s1, .type, e1⟩ :: w1 → Derives .typeName w1 n →
      Derives .librarySingle w (mkW w (.typeDefinition n none))
  | libTypeAlts : w = ⟨s1, .type, e1⟩ :: (w1 ++ ⟨s2, .equals, e2⟩ :: w2) →
      Derives .typeName w1 n → Derives (.plus .typeAlt) w2 alts →
      Derives .librarySingle w (mkW w (.typeDefinition n (some alts)))
  -- TypedIdentifier, lines 794-802; TypeAnnotation, lines 815-822
  | typedId : w = w1 ++ w2 → Derives .regularId w1 x → Derives .typeAnn w2 a →
      Derives .typedId w (mkW w ⟨x, a⟩)
  | typeAnn : w = ⟨s1, .colon, e1⟩ :: w1 → Derives .scillaType w1 t →
      Derives .typeAnn w (mkW w ⟨t⟩)
  -- TypeAlternativeClause, lines 837-848
  | altType : w = ⟨s1, .pipe, e1⟩ :: w1 → Derives .typeName w1 n →
      Derives .typeAlt w (mkW w (.clauseType n))
  | altTypeArgs : w = ⟨s1, .pipe, e1⟩ :: (w1 ++ ⟨s2, .of_, e2⟩ :: w2) →
      Derives .typeName w1 n → Derives (.plus .typeArg) w2 args →
      Derives .typeAlt w (mkW w (.clauseTypeWithArgs n args))
  -- TypeMapValueAllowingTypeArguments, lines 866-879
  | mvWithArgs : w = w1 ++ w2 → Derives .metaId w1 m → Derives (.plus .mapValueArgs) w2 args →
      Derives .mapValueAllowing w (mkW w (.typeMapValueWithArgs m args))
  | mvNoArgs : Derives .mapValue w v →
      Derives .mapValueAllowing w (mkW w (.typeMapValueNoArgs v))
  -- ContractTypeArguments, lines 890-897
  | contractTypeArgs : w = ⟨s1, .openBrace, e1⟩ :: (w1 ++ [⟨s2, .closeBrace, e2⟩]) →
      Derives (.star .typeArg) w1 args → Derives .contractTypeArgs w (mkW w ⟨args⟩)
  -- FullExpression, lines 921-1006
  | exprLet : w = ⟨s1, .let_, e1⟩ ::
        (w1 ++ (w2 ++ ⟨s2, .equals, e2⟩ :: (w3 ++ ⟨s3, .in_, e3⟩ :: w4))) →
      Derives .regularId w1 x → Derives (.opt .typeAnn) w2 ta → Derives .fullExpr w3 ex →
      Derives .fullExpr w4 body →
      Derives .fullExpr w (mkW w (.localVariableDeclaration x ex ta body))
  | exprFun : w = ⟨s1, .fun_, e1⟩ :: ⟨s2, .openParen, e2⟩ ::
        (w1 ++ (w2 ++ ⟨s3, .closeParen, e3⟩ :: ⟨s4, .doubleArrow, e4⟩ :: w3)) →
      Derives .regularId w1 x → Derives .typeAnn w2 ta → Derives .fullExpr w3 ex →
      Derives .fullExpr w (mkW w (.functionDeclaration x ta ex))
  | exprCall : w = w1 ++ w2 → Derives .varId w1 f → Derives (.plus .varId) w2 args →
      Derives .fullExpr w (mkW w (.functionCall f args))
  | exprAtomic : Derives .atomic w a → Derives .fullExpr w (mkW w (.expressionAtomic a))
  | exprBuiltin : w = ⟨s1, .builtin, e1⟩ :: (w1 ++ (w2 ++ w3)) →
      Derives .regularId w1 b → Derives (.opt .contractTypeArgs) w2 targs →
      Derives .builtinArgs w3 xs →
      Derives .fullExpr w (mkW w (.expressionBuiltin b targs xs))
  | exprMessage : w = ⟨s1, .openBrace, e1⟩ :: (w1 ++ (w2 ++ [⟨s2, .closeBrace, e2⟩])) →
      Derives .messageEntry w1 m → Derives (.star .nextMessage) w2 ms →
      Derives .fullExpr w (mkW w (.message (m :: ms)))
  | exprMatch : w = ⟨s1, .match_, e1⟩ :: (w1 ++ ⟨s2, .with_, e2⟩ :: (w2 ++ [⟨s3, .end_, e3⟩])) →
      Derives .varId w1 x → Derives (.plus .pmExprClause) w2 cs →
      Derives .fullExpr w (mkW w (.match_ x cs))
  | exprConstr : w = w1 ++ (w2 ++ w3) → Derives .metaId w1 m →
      Derives (.opt .contractTypeArgs) w2 targs → Derives (.star .varId) w3 args →
      Derives .fullExpr w (mkW w (.constructorCall m targs args))
  | exprTFun : w = ⟨s1, .tfun, e1⟩ :: (w1 ++ ⟨s2, .doubleArrow, e2⟩ :: w2) →
      Derives .templateId w1 x → Derives .fullExpr w2 ex →
      Derives .fullExpr w (mkW w (.templateFunction x ex))
  | exprTApp : w = ⟨s1, .at_, e1⟩ :: (w1 ++ w2) → Derives .varId w1 x →
      Derives (.plus .typeArg) w2 args → Derives .fullExpr w (mkW w (.tApp x args))
  -- PatternMatchExpressionClause, lines 1021-1027
  | pmExprClause : w = ⟨s1, .pipe, e1⟩ :: (w1 ++ ⟨s2, .doubleArrow, e2⟩ :: w2) →
      Derives .pattern w1 p → Derives .fullExpr w2 ex →
      Derives .pmExprClause w (mkW w (.mk p ex))
  -- Pattern, lines 1044-1063
  | patWildcard : w = [⟨s1, .underscore, e1⟩] → Derives .pattern w (mkW w .wildcard)
  | patBinder : Derives .regularId w x → Derives .pattern w (mkW w (.binder x))
  | patConstr : w = w1 ++ w2 → Derives .metaId w1 m → Derives (.star .argPattern) w2 args →
      Derives .pattern w (mkW w (.constructor m args))
  -- ArgumentPattern, lines 1079-1105
  | apWildcard : w = [⟨s1, .underscore, e1⟩] → Derives .argPattern w (mkW w .wildcardArgument)
  | apBinder : Derives .regularId w x → Derives .argPattern w (mkW w (.binderArgument x))
  | apConstr : Derives .metaId w m → Derives .argPattern w (mkW w (.constructorArgument m))
  | apParen : w = ⟨s1, .openParen, e1⟩ :: (w1 ++ [⟨s2, .closeParen, e2⟩]) →
      Derives .pattern w1 p → Derives .argPattern w (mkW w (.patternArgument p))
  -- NextMessageEntry, MessageEntry, lines 1119-1135
  | nextMessage : w = ⟨s1, .semicolon, e1⟩ :: w1 → Derives .messageEntry w1 m →
      Derives .nextMessage w m
  | msgLiteral : w = w1 ++ ⟨s1, .colon, e1⟩ :: w2 → Derives .varId w1 i → Derives .valueLit w2 v →
      Derives .messageEntry w (mkW w (.messageLiteral i v))
  | msgVariable : w = w1 ++ ⟨s1, .colon, e1⟩ :: w2 → Derives .varId w1 i → Derives .varId w2 v →
      Derives .messageEntry w (mkW w (.messageVariable i v))
  -- AtomicExpression, lines 1146-1159
  | atomicVar : Derives .varId w v → Derives .atomic w (mkW w (.atomicSid v))
  | atomicLit : Derives .valueLit w v → Derives .atomic w (mkW w (.atomicLit v))
  -- ValueLiteral, lines 1180-1206
  | litInt : w = w1 ++ w2 → Derives .typeName w1 t → Derives .signedInt w2 n →
      Derives .valueLit w (mkW w (.literalInt t n))
  | litHex : Derives .hexNumber w x → Derives .valueLit w (mkW w (.literalHex x))
  | litString : Derives .stringLit w x → Derives .valueLit w (mkW w (.literalString x))
  | litEmp : w = ⟨s1, .emp, e1⟩ :: (w1 ++ w2) → Derives .mapKey w1 k → Derives .mapValue w2 v →
      Derives .valueLit w (mkW w (.literalEmptyMap k v))
  -- Statement, lines 1239-1310
  | stLoad : w = w1 ++ ⟨s1, .leftArrow, e1⟩ :: w2 → Derives .regularId w1 x → Derives .varId w2 v →
      Derives .statement w (.load x v)
  | stRemote : Derives .remoteFetch w r → Derives .statement w (.remoteFetch r)
  | stStore : w = w1 ++ ⟨s1, .colonEquals, e1⟩ :: w2 → Derives .regularId w1 x →
      Derives .varId w2 v → Derives .statement w (.store x v)
  | stBind : w = w1 ++ ⟨s1, .equals, e1⟩ :: w2 → Derives .regularId w1 x →
      Derives .fullExpr w2 ex → Derives .statement w (.bind x ex)
  | stReadBC : w = w1 ++ ⟨s1, .leftArrow, e1⟩ :: ⟨s2, .ampersand, e2⟩ :: (w2 ++ w3) →
      Derives .regularId w1 x → Derives .typeName w2 t → Derives (.opt .bcFetchArgs) w3 args →
      Derives .statement w (.readFromBC x t args)
  | stMapGet : w = w1 ++ ⟨s1, .leftArrow, e1⟩ :: (w2 ++ w3) →
      Derives .regularId w1 x → Derives .regularId w2 y → Derives (.plus .mapAccess) w3 ks →
      Derives .statement w (.mapGet x ks y)
  | stMapGetExists : w = w1 ++ ⟨s1, .leftArrow, e1⟩ :: ⟨s2, .exists_, e2⟩ :: (w2 ++ w3) →
      Derives .regularId w1 x → Derives .regularId w2 y → Derives (.plus .mapAccess) w3 ks →
      Derives .statement w (.mapGetExists x ks y)
  | stMapUpdate : w = w1 ++ (w2 ++ ⟨s1, .colonEquals, e1⟩ :: w3) →
      Derives .regularId w1 x → Derives (.plus .mapAccess) w2 ks → Derives .varId w3 v →
      Derives .statement w (.mapUpdate x ks v)
  | stMapDelete : w = ⟨s1, .delete, e1⟩ :: (w1 ++ w2) →
      Derives .regularId w1 x → Derives (.plus .mapAccess) w2 ks →
      Derives .statement w (.mapUpdateDelete x ks)
  | stAccept : w = [⟨s1, .accept, e1⟩] → Derives .statement w .accept
  | stSend : w = ⟨s1, .send, e1⟩ :: w1 → Derives .varId w1 v → Derives .statement w (.send v)
  | stEvent : w = ⟨s1, .event, e1⟩ :: w1 → Derives .varId w1 v →
      Derives .statement w (.createEvnt v)
  | stThrow : w = ⟨s1, .throw, e1⟩ :: w1 → Derives (.opt .varId) w1 v →
      Derives .statement w (.throw v)
  | stMatch : w = ⟨s1, .match_, e1⟩ :: (w1 ++ ⟨s2, .with_, e2⟩ :: (w2 ++ [⟨s3, .end_, e3⟩])) →
      Derives .varId w1 x → Derives (.plus .pmClause) w2 cs →
      Derives .statement w (.matchStmt x cs)
  | stCall : w = w1 ++ w2 → Derives .componentId w1 c → Derives (.star .varId) w2 args →
      Derives .statement w (.callProc c args)
  | stForall : w = ⟨s1, .forall_, e1⟩ :: (w1 ++ w2) → Derives .varId w1 x →
      Derives .componentId w2 c → Derives .statement w (.iterate x c)
  -- NextStatement, lines 1312-1314; StatementBlock, lines 1329-1345
  | nextStatement : w = ⟨s1, .semicolon, e1⟩ :: w1 → Derives .statement w1 st →
      Derives .nextStatement w st
  | stmtBlock : w = w1 ++ w2 → Derives .statement w1 st → Derives (.star .nextStatement) w2 sts →
      Derives .stmtBlock w (mkW w (.mk (st :: sts)))
  -- BlockchainFetchArguments, lines 1358-1360
  | bcFetchArgs : w = ⟨s1, .openParen, e1⟩ :: (w1 ++ [⟨s2, .closeParen, e2⟩]) →
      Derives (.plus .varId) w1 args → Derives .bcFetchArgs w ⟨args⟩
  -- ComponentId, lines 1377-1391
  | componentType : Derives .typeName w n → Derives .componentId w (mkW w (.withTypeLikeName n))
  | componentRegular : Derives .regularId w x → Derives .componentId w (mkW w (.withRegularId x))
  -- PatternMatchClause, lines 1406-1417
  | pmClause : w = ⟨s1, .pipe, e1⟩ :: (w1 ++ ⟨s2, .doubleArrow, e2⟩ :: w2) →
      Derives .pattern w1 p → Derives (.opt .stmtBlock) w2 b →
      Derives .pmClause w (mkW w (.mk p b))
  -- RemoteFetchStatement, lines 1440-1483
  | rfState : w = w1 ++ ⟨s1, .leftArrow, e1⟩ :: ⟨s2, .ampersand, e2⟩ ::
        (w2 ++ ⟨s3, .dot, e3⟩ :: w3) →
      Derives .regularId w1 x → Derives .regularId w2 a → Derives .varId w3 v →
      Derives .remoteFetch w (.readStateMutable x a v)
  | rfSpecial : w = w1 ++ ⟨s1, .leftArrow, e1⟩ :: ⟨s2, .ampersand, e2⟩ ::
        (w2 ++ ⟨s3, .dot, e3⟩ :: w3) →
      Derives .regularId w1 x → Derives .specialId w2 a → Derives .specialId w3 m →
      Derives .remoteFetch w (.readStateMutableSpecialId x a m)
  | rfMap : w = w1 ++ ⟨s1, .leftArrow, e1⟩ :: ⟨s2, .ampersand, e2⟩ ::
        (w2 ++ ⟨s3, .dot, e3⟩ :: (w3 ++ w4)) →
      Derives .regularId w1 x → Derives .regularId w2 a → Derives .regularId w3 m →
      Derives (.plus .mapAccess) w4 ks →
      Derives .remoteFetch w (.readStateMutableMapAccess x a m ks)
  | rfExists : w = w1 ++ ⟨s1, .leftArrow, e1⟩ :: ⟨s2, .ampersand, e2⟩ :: ⟨s4, .exists_, e4⟩ ::
        (w2 ++ ⟨s3, .dot, e3⟩ :: (w3 ++ w4)) →
      Derives .regularId w1 x → Derives .regularId w2 a → Derives .regularId w3 m →
      Derives (.plus .mapAccess) w4 ks →
      Derives .remoteFetch w (.readStateMutableMapAccessExists x a m ks)
  | rfCast : w = w1 ++ ⟨s1, .leftArrow, e1⟩ :: ⟨s2, .ampersand, e2⟩ ::
        (w2 ++ ⟨s3, .as_, e3⟩ :: w3) →
      Derives .regularId w1 x → Derives .varId w2 v → Derives .addressType w3 a →
      Derives .remoteFetch w (.readStateMutableCastAddress x v a)
  -- MapAccess, lines 1497-1503
  | mapAccess : w = ⟨s1, .openBracket, e1⟩ :: (w1 ++ [⟨s2, .closeBracket, e2⟩]) →
      Derives .varId w1 x → Derives .mapAccess w (mkW w ⟨x⟩)
  -- ParameterPair, NextParameterPair, ComponentParameters, lines 1516-1564
  | paramPair : Derives .typedId w t → Derives .paramPair w (mkW w ⟨t⟩)
  | nextParamPair : w = ⟨s1, .comma, e1⟩ :: w1 → Derives .paramPair w1 p →
      Derives .nextParamPair w p
  | compParams : w = ⟨s1, .openParen, e1⟩ :: (w1 ++ (w2 ++ [⟨s2, .closeParen, e2⟩])) →
      Derives (.opt .paramPair) w1 p → Derives (.star .nextParamPair) w2 ps →
      Derives .compParams w (mkW w ⟨p.toList ++ ps⟩)
  -- ComponentDefinition, lines 1577-1590; TransitionDefinition, 1603-1609;
  -- ProcedureDefinition, 1623-1633; ComponentBody, 1646-1653
  | compTransition : Derives .transDef w d → Derives .compDef w (mkW w (.transitionComponent d))
  | compProcedure : Derives .procDef w d → Derives .compDef w (mkW w (.procedureComponent d))
  | transDef : w = ⟨s1, .transition, e1⟩ :: (w1 ++ (w2 ++ w3)) →
      Derives .componentId w1 n → Derives .compParams w2 ps → Derives .compBody w3 b →
      Derives .transDef w (mkW w ⟨n, ps, b⟩)
  | procDef : w = ⟨s1, .procedure, e1⟩ :: (w1 ++ (w2 ++ w3)) →
      Derives .componentId w1 n → Derives .compParams w2 ps → Derives .compBody w3 b →
      Derives .procDef w (mkW w ⟨n, ps, b⟩)
  | compBody : w = w1 ++ [⟨s1, .end_, e1⟩] → Derives (.opt .stmtBlock) w1 b →
      Derives .compBody w (mkW w ⟨b⟩)
  -- ContractDefinition, lines 1671-1689; ContractField, 1705-1711; WithConstraint, 1724-1730
  | contractDef : w = ⟨s1, .contract, e1⟩ :: (w1 ++ (w2 ++ (w3 ++ (w4 ++ w5)))) →
      Derives .typeName w1 n → Derives .compParams w2 ps → Derives (.opt .withConstraint) w3 c →
      Derives (.star .contractField) w4 fs → Derives (.star .compDef) w5 cs →
      Derives .contractDef w (mkW w ⟨n, ps, c, fs, cs⟩)
  | contractField : w = ⟨s1, .field, e1⟩ :: (w1 ++ ⟨s2, .equals, e2⟩ :: w2) →
      Derives .typedId w1 t → Derives .fullExpr w2 ex →
      Derives .contractField w (mkW w ⟨t, ex⟩)
  | withConstraint : w = ⟨s1, .with_, e1⟩ :: (w1 ++ [⟨s2, .doubleArrow, e2⟩]) →
      Derives .fullExpr w1 ex → Derives .withConstraint w (mkW w ⟨ex⟩)

end Verif
