import Verif.Model.Visitor
import Verif.Model.Token
/-
What a walk over the syntax tree should do: the children of every kind of node, in the order in which
they are visited, and the events a visitor sees.  Nothing here refers to the `visit…` functions of the
model.
-/
namespace Verif

/-- What a node does when the visit of a child returns `SkipChildren` (a visit returns this only if an
Exit callback does). -/
inductive OnSkip where
  /-- goes on with the next child -/
  | go
  /-- leaves out the remaining children and its own Exit, returns `Continue` -/
  | stop
  /-- leaves out the remaining children, calls Exit -/
  | cut
  /-- leaves out the remaining children and its own Exit, returns `SkipChildren` -/
  | ret
deriving DecidableEq, Repr

/-- A step of the visit of the children of a node. -/
inductive Kid where
  /-- visit the child; if there is a position, it is pushed before and popped after the visit -/
  | child (how : OnSkip) (pos : Option (Pos × Pos)) (n : AnyNode)
  /-- push a position (which nothing pops) -/
  | push (start stop : Pos)
  /-- not implemented -/
  | panic

/-- a child with a position -/
def kid {α : Type} (how : OnSkip) (mk : α → AnyNode) (w : W α) : Kid :=
  .child how (some (w.start, w.stop)) (mk w.node)

/-- a list of children, an optional child -/
def kidsL {α : Type} (how : OnSkip) (mk : α → AnyNode) (l : List (W α)) : List Kid := l.map (kid how mk)
def kidsO {α : Type} (how : OnSkip) (mk : α → AnyNode) (o : Option (W α)) : List Kid :=
  o.toList.map (kid how mk)

/-- The children of a node that a walk visits, in order. -/
def kids : AnyNode → List Kid
  | .byteStr _ => []
  | .typeNameId n =>
    match n with
    | .byteStringType b => [.child .stop none (.byteStr b)]
    | .eventType => []
    | .typeOrEnumLikeIdentifier _ => []
  | .importedName n =>
    match n with
    | .regularImport x => [kid .stop .typeNameId x]
    | .aliasedImport x a => [kid .go .typeNameId x, kid .stop .typeNameId a]
  | .importDecls n => kidsL .go .importedName n.importList
  | .metaId n =>
    match n with
    | .metaName x => [kid .stop .typeNameId x]
    | .metaNameInNamespace x y => [kid .go .typeNameId x, kid .stop .typeNameId y]
    | .metaNameInHexspace _ x => [kid .stop .typeNameId x]
    | .byteString => []
  | .varId n =>
    match n with
    | .variableInNamespace x _ => [kid .stop .typeNameId x]
    | .variableName _ => []
    | .specialIdentifier _ => []
  | .builtinArgs n => kidsL .go .varId n.arguments
  | .mapKey n =>
    match n with
    | .genericMapKey m => [kid .stop .metaId m]
    | .enclosedGenericId m => [kid .stop .metaId m]
    | .enclosedAddressMapKeyType a => [kid .stop .addrType a]
    | .addressMapKeyType a => [kid .stop .addrType a]
  | .mapValue n =>
    match n with
    | .mapValueTypeOrEnumLikeIdentifier m => [kid .stop .metaId m]
    | .mapKeyValue e => [kid .stop .mapEntry e]
    | .mapValueParenthesizedType t => [kid .stop .mapValueAllowing t]
    | .mapValueAddressType a => [kid .stop .addrType a]
  | .typeArg n =>
    match n with
    | .enclosedTypeArgument t => [kid .stop .scillaType t]
    | .genericTypeArgument m => [kid .stop .metaId m]
    | .templateTypeArgument _ => []
    | .addressTypeArgument a => [kid .stop .addrType a]
    | .mapTypeArgument k v => [kid .cut .mapKey k, kid .stop .mapValue v]
  | .scillaType n =>
    match n with
    | .genericTypeWithArgs m args => kid .go .metaId m :: kidsL .go .typeArg args
    | .mapType k v => [kid .go .mapKey k, kid .stop .mapValue v]
    | .functionType a b => [kid .go .scillaType a, kid .stop .scillaType b]
    | .polyFunctionType _ t => [kid .stop .scillaType t]
    | .enclosedType t => [kid .stop .scillaType t]
    | .scillaAddresseType a => [kid .stop .addrType a]
    | .typeVarType _ => []
  | .mapEntry (.mk k v) => [kid .go .mapKey k, kid .stop .mapValue v]
  | .addrField (.mk i t) => [kid .go .varId i, kid .stop .scillaType t]
  | .addrType (.mk i _ fs) => kid .go .typeNameId i :: kidsL .go .addrField fs
  | .fullExpr n =>
    match n with
    | .localVariableDeclaration _ e _ b => [kid .go .fullExpr e, kid .stop .fullExpr b]
    | .functionDeclaration _ _ e => [kid .stop .fullExpr e]
    | .functionCall f args => kid .go .varId f :: kidsL .go .varId args
    | .expressionAtomic a => [kid .stop .atomic a]
    | .expressionBuiltin _ _ xs => [kid .stop .builtinArgs xs]
    | .message es => kidsL .go .messageEntry es
    | .match_ x cs => kid .go .varId x :: kidsL .go .pmExprClause cs
    | .constructorCall m _ args => kid .go .metaId m :: kidsL .go .varId args
    | .templateFunction _ e => [kid .stop .fullExpr e]
    | .tApp x targs => kid .go .varId x :: kidsL .go .typeArg targs
  | .messageEntry n =>
    match n with
    | .messageLiteral i v => [kid .go .varId i, kid .stop .valueLit v]
    | .messageVariable i v => [kid .go .varId i, .push v.start v.stop, kid .stop .varId v]
  | .pmExprClause (.mk p e) => [kid .stop .pattern p, kid .stop .fullExpr e]
  | .atomic n =>
    match n with
    | .atomicSid v => [kid .stop .varId v]
    | .atomicLit l => [kid .stop .valueLit l]
  | .contractTypeArgs n => kidsL .go .typeArg n.typeArguments
  | .valueLit n =>
    match n with
    | .literalInt t _ => [kid .stop .typeNameId t]
    | .literalHex _ => []
    | .literalString _ => []
    | .literalEmptyMap k v => [kid .go .mapKey k, .push v.start v.stop, kid .stop .mapValue v]
  | .mapAccess n => [kid .stop .varId n.identifierName]
  | .pattern n =>
    match n with
    | .wildcard => []
    | .binder _ => []
    | .constructor m args => kid .go .metaId m :: kidsL .go .argPattern args
  | .argPattern n =>
    match n with
    | .wildcardArgument => []
    | .binderArgument _ => []
    | .constructorArgument m => [kid .stop .metaId m]
    | .patternArgument p => [kid .stop .pattern p]
  | .pmClause (.mk p b) =>
    .push p.start p.stop :: kid .go .pattern p :: kidsO .stop .stmtBlock b
  | .bcFetchArgs n => kidsL .go .varId n.arguments
  | .statement n =>
    match n with
    | .load _ v => [kid .stop .varId v]
    | .store _ v => [kid .stop .varId v]
    | .remoteFetch r => [.child .stop none (.remoteFetch r)]
    | .bind _ e => [kid .stop .fullExpr e]
    | .readFromBC _ _ args => args.toList.map fun a => .child .stop none (.bcFetchArgs a)
    | .mapGet _ ks _ => kidsL .ret .mapAccess ks
    | .mapUpdate _ ks _ => kidsL .ret .mapAccess ks
    | .mapGetExists _ ks _ => kidsL .ret .mapAccess ks
    | .mapUpdateDelete _ ks => kidsL .ret .mapAccess ks
    | .send v => [kid .stop .varId v]
    | .createEvnt v => [kid .stop .varId v]
    | .throw v => kidsO .stop .varId v
    | .matchStmt x cs => kid .ret .varId x :: kidsL .ret .pmClause cs
    | .callProc c args => kid .ret .componentId c :: kidsL .ret .varId args
    | .iterate x c => [kid .ret .varId x, kid .stop .componentId c]
    | .accept => []
  | .remoteFetch n =>
    match n with
    | .readStateMutable _ _ v => [kid .stop .varId v]
    | .readStateMutableSpecialId _ _ _ => []
    | .readStateMutableMapAccess _ _ _ ks => kidsL .go .mapAccess ks
    | .readStateMutableMapAccessExists _ _ _ ks => kidsL .go .mapAccess ks
    | .readStateMutableCastAddress _ v a => [kid .go .varId v, kid .stop .addrType a]
  | .componentId n =>
    match n with
    | .withTypeLikeName t => [kid .stop .typeNameId t]
    | .withRegularId _ => []
  | .compParams n => kidsL .go .paramPair n.parameters
  | .paramPair n => [kid .stop .typedId n.identifierWithType]
  | .compBody n => kidsO .stop .stmtBlock n.statementBlock
  | .stmtBlock (.mk sts) => sts.map fun s => .child .go none (.statement s)
  | .typedId n => [kid .stop .typeAnn n.annotation]
  | .typeAnn n => [kid .stop .scillaType n.typeName]
  | .program n =>
    kidsO .ret .importDecls n.importDeclarations ++ kidsO .ret .libraryDef n.libraryDefinition ++
      [kid .stop .contractDef n.contractDefinition]
  | .libraryDef n => kidsL .go .librarySingle n.definitions
  | .librarySingle n =>
    match n with
    | .letDefinition _ _ e => [kid .go .fullExpr e, .panic]
    | .typeDefinition t cs => kid .go .typeNameId t :: kidsL .go .typeAlt (cs.getD [])
  | .contractDef n =>
    kid .go .compParams n.parameters :: (kidsO .go .withConstraint n.constraint ++
      kidsL .go .contractField n.fields ++ kidsL .go .compDef n.components)
  | .contractField n => [kid .go .typedId n.typedIdentifier, kid .stop .fullExpr n.rightHandSide]
  | .withConstraint n => [kid .stop .fullExpr n.expression]
  | .compDef n =>
    match n with
    | .transitionComponent d => [kid .stop .transDef d]
    | .procedureComponent d => [kid .stop .procDef d]
  | .procDef n => [kid .go .componentId n.name, kid .go .compParams n.parameters, kid .stop .compBody n.body]
  | .transDef n => [kid .go .componentId n.name, kid .go .compParams n.parameters, kid .stop .compBody n.body]
  | .typeAlt n =>
    match n with
    | .clauseType t => [kid .stop .typeNameId t]
    | .clauseTypeWithArgs t args => kid .go .typeNameId t :: kidsL .go .typeArg args
  | .mapValueArgs n =>
    match n with
    | .enclosedTypeMapValue t => [kid .stop .mapValueAllowing t]
    | .genericMapValueArgument m => [kid .stop .metaId m]
    | .mapKeyValueType k v => [kid .go .mapKey k, kid .stop .mapValue v]
  | .mapValueAllowing n =>
    match n with
    | .typeMapValueNoArgs v => [kid .stop .mapValue v]
    | .typeMapValueWithArgs m args => kid .stop .metaId m :: kidsL .stop .mapValueArgs args

/-- an address type -/
def AnyNode.isAddress : AnyNode → Bool
  | .addrType _ => true
  | _ => false

/-- Argument lists of builtins, and type arguments of constructors, drop all errors of their elements
except one particular message. -/
def AnyNode.onlyError : AnyNode → Option Str
  | .builtinArgs _ => some (str! "Failure")
  | .contractTypeArgs _ => some []
  | _ => none

end Verif
