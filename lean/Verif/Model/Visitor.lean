import Verif.Model.Ast
/-
The tree walk: src/ast/visitor.rs, src/ast/mod.rs, src/ast/converting.rs.

`Emitter σ` is the trait `AstConverting` (converting.rs 1-338) as a record: one callback per node
kind and mode, plus the two source-position hooks.  `&mut dyn AstConverting` is a state `σ` that is
threaded through.  The 46 `emit_*` methods are one function `emit` on the sum `AnyNode` of the node
types.
-/
namespace Verif

/-- `enum TreeTraversalMode`, src/ast/mod.rs 6-11 -/
inductive Mode where
  | enter | exit
deriving DecidableEq, Repr

/-- `enum TraversalResult`, src/ast/mod.rs 13-19 -/
inductive TR where
  | continue_ | skip
deriving DecidableEq, Repr

/-- A node of any kind: the argument of the `emit_*` methods (converting.rs). -/
inductive AnyNode where
  | byteStr (n : NodeByteStr)
  | typeNameId (n : NodeTypeNameIdentifier)
  | importedName (n : NodeImportedName)
  | importDecls (n : NodeImportDeclarations)
  | metaId (n : NodeMetaIdentifier)
  | varId (n : NodeVariableIdentifier)
  | builtinArgs (n : NodeBuiltinArguments)
  | mapKey (n : NodeTypeMapKey)
  | mapValue (n : NodeTypeMapValue)
  | typeArg (n : NodeTypeArgument)
  | scillaType (n : NodeScillaType)
  | mapEntry (n : NodeTypeMapEntry)
  | addrField (n : NodeAddressTypeField)
  | addrType (n : NodeAddressType)
  | fullExpr (n : NodeFullExpression)
  | messageEntry (n : NodeMessageEntry)
  | pmExprClause (n : NodePatternMatchExpressionClause)
  | atomic (n : NodeAtomicExpression)
  | contractTypeArgs (n : NodeContractTypeArguments)
  | valueLit (n : NodeValueLiteral)
  | mapAccess (n : NodeMapAccess)
  | pattern (n : NodePattern)
  | argPattern (n : NodeArgumentPattern)
  | pmClause (n : NodePatternMatchClause)
  | bcFetchArgs (n : NodeBlockchainFetchArguments)
  | statement (n : NodeStatement)
  | remoteFetch (n : NodeRemoteFetchStatement)
  | componentId (n : NodeComponentId)
  | compParams (n : NodeComponentParameters)
  | paramPair (n : NodeParameterPair)
  | compBody (n : NodeComponentBody)
  | stmtBlock (n : NodeStatementBlock)
  | typedId (n : NodeTypedIdentifier)
  | typeAnn (n : NodeTypeAnnotation)
  | program (n : NodeProgram)
  | libraryDef (n : NodeLibraryDefinition)
  | librarySingle (n : NodeLibrarySingleDefinition)
  | contractDef (n : NodeContractDefinition)
  | contractField (n : NodeContractField)
  | withConstraint (n : NodeWithConstraint)
  | compDef (n : NodeComponentDefinition)
  | procDef (n : NodeProcedureDefinition)
  | transDef (n : NodeTransitionDefinition)
  | typeAlt (n : NodeTypeAlternativeClause)
  | mapValueArgs (n : NodeTypeMapValueArguments)
  | mapValueAllowing (n : NodeTypeMapValueAllowingTypeArguments)

/-- A stateful computation returning `Result<α, String>` or panicking (visitor.rs 10) -/
abbrev M (σ α : Type) := σ → σ × Outcome α

/-- `trait AstConverting`, src/ast/converting.rs 9-338 -/
structure Emitter (σ : Type) where
  push : Pos → Pos → σ → σ
  pop : σ → σ
  emit : Mode → AnyNode → M σ TR

section
variable {σ : Type}

namespace M

/-- `Ok(a)` (e.g. visitor.rs 27) -/
def pure {α : Type} (a : α) : M σ α := fun s => (s, .ok a)

/-- `let a = m?; f(a)` (e.g. visitor.rs 327) -/
def bind {α β : Type} (m : M σ α) (f : α → M σ β) : M σ β := fun s =>
  match m s with
  | (s1, .ok a) => f a s1
  | (s1, .err e) => (s1, .err e)
  | (s1, .panic) => (s1, .panic)

/-- `m?; k` : the result of `m` is ignored unless it is an error (e.g. visitor.rs 256) -/
def andThen {α β : Type} (m : M σ α) (k : M σ β) : M σ β := m.bind fun _ => k

/-- `panic!`, `unimplemented!`, `todo!` (visitor.rs 997) -/
def panic {α : Type} : M σ α := fun s => (s, .panic)

/-- `Ok(TraversalResult::Continue)` (e.g. visitor.rs 27) -/
def cont : M σ TR := M.pure .continue_

end M

variable (E : Emitter σ)

/-- `impl AstVisitor for WithMetaData<T>`, visitor.rs 13-21 (a panic unwinds before the pop) -/
def withPos (start stop : Pos) (m : M σ TR) : M σ TR := fun s =>
  match m (E.push start stop s) with
  | (s1, .panic) => (s1, .panic)
  | (s1, r) => (E.pop s1, r)

/-- The pattern shared by almost all `visit` methods: Enter callback; children if it returned
`Ok(Continue)`; then Exit if the children returned `Ok(Continue)`, `Ok(Continue)` if they (or
Enter) returned `Ok(SkipChildren)`; errors are returned. E.g. visitor.rs 36-56. -/
def visitNode (n : AnyNode) (children : M σ TR) : M σ TR := fun s =>
  match E.emit .enter n s with
  | (s1, .ok .continue_) =>
    match children s1 with
    | (s2, .ok .continue_) => E.emit .exit n s2
    | (s2, .ok .skip) => (s2, .ok .continue_)
    | (s2, r) => (s2, r)
  | (s1, .ok .skip) => (s1, .ok .continue_)
  | (s1, r) => (s1, r)

/-- What the children part of a `visit` method with `return ret` statements does: fall through
with a result, or return from `visit` with a result (visitor.rs 644-749, 925-958) -/
inductive Flow where
  | fall (r : TR)
  | ret (r : TR)

/-- `visitNode` for the two methods with early `return`s (`NodeStatement`, visitor.rs 644-749,
and `NodeProgram`, 925-958). -/
def visitNodeRet (n : AnyNode) (children : M σ Flow) : M σ TR := fun s =>
  match E.emit .enter n s with
  | (s1, .ok .continue_) =>
    match children s1 with
    | (s2, .ok (.fall .continue_)) => E.emit .exit n s2
    | (s2, .ok (.fall .skip)) => (s2, .ok .continue_)
    | (s2, .ok (.ret r)) => (s2, .ok r)
    | (s2, .err e) => (s2, .err e)
    | (s2, .panic) => (s2, .panic)
  | (s1, .ok .skip) => (s1, .ok .continue_)
  | (s1, r) => (s1, r)

/-- the children part without early return (visitor.rs 644-749, 925-958) -/
def M.fall (m : M σ TR) : M σ Flow := m.bind fun r => M.pure (.fall r)

/-- `let ret = m; if ret != Ok(Continue) { return ret; } k` (e.g. visitor.rs 925-958) -/
def M.orReturn (m : M σ TR) (k : M σ Flow) : M σ Flow :=
  m.bind fun
    | .continue_ => k
    | .skip => M.pure (.ret .skip)

/-- `for x in xs { visit(x)?; } Ok(Continue)` (e.g. visitor.rs 255-258) -/
def visitList {α : Type} (f : α → M σ TR) : List α → M σ TR
  | [] => M.cont
  | x :: xs => (f x).andThen (visitList f xs)

/-- `for x in xs { let ret = visit(x); if ret != Ok(Continue) { return ret; } } Ok(Continue)` (e.g. visitor.rs 644-749) -/
def visitListRet {α : Type} (f : α → M σ TR) : List α → M σ Flow
  | [] => M.pure (.fall .continue_)
  | x :: xs => (f x).orReturn (visitListRet f xs)

/-- `xs.map(visit).find(|r| *r == Err(m)).unwrap_or(Ok(Continue))` (visitor.rs 157-161, 497-501):
stops only at the error `m`; every other result, including other errors, is dropped. -/
def visitListUntil {α : Type} (stop : Str) (f : α → M σ TR) : List α → M σ TR
  | [] => M.cont
  | x :: xs => fun s =>
    match f x s with
    | (s1, .panic) => (s1, .panic)
    | (s1, .err e) => if e = stop then (s1, .err e) else visitListUntil stop f xs s1
    | (s1, .ok _) => visitListUntil stop f xs s1

/-- optional child (e.g. visitor.rs 848-865) -/
def visitOpt {α : Type} (f : α → M σ TR) : Option α → M σ TR
  | none => M.cont
  | some x => f x

/-! ### Leaves -/

/-- visitor.rs 23-34 -/
def visitByteStr (n : NodeByteStr) : M σ TR := visitNode E (.byteStr n) M.cont

/-- visitor.rs 36-56 -/
def visitTypeNameId (n : NodeTypeNameIdentifier) : M σ TR :=
  visitNode E (.typeNameId n) <|
    match n with
    | .byteStringType b => visitByteStr E b
    | _ => M.cont

/-- through `WithMetaData`, visitor.rs 13-21 -/
def visitTypeNameIdW (w : W NodeTypeNameIdentifier) : M σ TR :=
  withPos E w.start w.stop (visitTypeNameId E w.node)

/-- visitor.rs 58-79 -/
def visitImportedName (n : NodeImportedName) : M σ TR :=
  visitNode E (.importedName n) <|
    match n with
    | .regularImport x => visitTypeNameIdW E x
    | .aliasedImport x a => (visitTypeNameIdW E x).andThen (visitTypeNameIdW E a)

/-- through `WithMetaData`, visitor.rs 13-21 -/
def visitImportedNameW (w : W NodeImportedName) : M σ TR :=
  withPos E w.start w.stop (visitImportedName E w.node)

/-- visitor.rs 81-99 -/
def visitImportDecls (n : NodeImportDeclarations) : M σ TR :=
  visitNode E (.importDecls n) (visitList (visitImportedNameW E) n.importList)

/-- through `WithMetaData`, visitor.rs 13-21 -/
def visitImportDeclsW (w : W NodeImportDeclarations) : M σ TR :=
  withPos E w.start w.stop (visitImportDecls E w.node)

/-- visitor.rs 101-124 -/
def visitMetaId (n : NodeMetaIdentifier) : M σ TR :=
  visitNode E (.metaId n) <|
    match n with
    | .metaName x => visitTypeNameIdW E x
    | .metaNameInNamespace x y => (visitTypeNameIdW E x).andThen (visitTypeNameIdW E y)
    | .metaNameInHexspace _ x => visitTypeNameIdW E x
    | .byteString => M.cont

/-- through `WithMetaData`, visitor.rs 13-21 -/
def visitMetaIdW (w : W NodeMetaIdentifier) : M σ TR :=
  withPos E w.start w.stop (visitMetaId E w.node)

/-- visitor.rs 126-148 (`_ => ret` with `ret == Ok(Continue)`) -/
def visitVarId (n : NodeVariableIdentifier) : M σ TR :=
  visitNode E (.varId n) <|
    match n with
    | .variableInNamespace x _ => visitTypeNameIdW E x
    | _ => M.cont

/-- through `WithMetaData`, visitor.rs 13-21 -/
def visitVarIdW (w : W NodeVariableIdentifier) : M σ TR :=
  withPos E w.start w.stop (visitVarId E w.node)

/-- visitor.rs 150-173 -/
def visitBuiltinArgs (n : NodeBuiltinArguments) : M σ TR :=
  visitNode E (.builtinArgs n)
    (visitListUntil ['F', 'a', 'i', 'l', 'u', 'r', 'e'] (visitVarIdW E) n.arguments)

/-- through `WithMetaData`, visitor.rs 13-21 -/
def visitBuiltinArgsW (w : W NodeBuiltinArguments) : M σ TR :=
  withPos E w.start w.stop (visitBuiltinArgs E w.node)

/-- The `visit` of `NodeAddressType`, visitor.rs 317-337: anything but `Ok(Continue)` from Enter
(also an error) is treated like `Ok(Continue)` with no children, and Exit is called. -/
def visitAddrNode (n : AnyNode) (children : M σ TR) : M σ TR := fun s =>
  match E.emit .enter n s with
  | (s1, .ok .continue_) =>
    match children s1 with
    | (s2, .ok _) => E.emit .exit n s2
    | (s2, r) => (s2, r)
  | (s1, .panic) => (s1, .panic)
  | (s1, _) => E.emit .exit n s1

/-! ### Types -/

mutual
/-- visitor.rs 175-197 -/
def visitMapKey : NodeTypeMapKey → M σ TR
  | .genericMapKey m => visitNode E (.mapKey (.genericMapKey m)) (visitMetaIdW E m)
  | .enclosedGenericId m => visitNode E (.mapKey (.enclosedGenericId m)) (visitMetaIdW E m)
  | .enclosedAddressMapKeyType a =>
    visitNode E (.mapKey (.enclosedAddressMapKeyType a)) (visitAddrTypeW a)
  | .addressMapKeyType a => visitNode E (.mapKey (.addressMapKeyType a)) (visitAddrTypeW a)

/-- visitor.rs 199-219 -/
def visitMapValue : NodeTypeMapValue → M σ TR
  | .mapValueTypeOrEnumLikeIdentifier m =>
    visitNode E (.mapValue (.mapValueTypeOrEnumLikeIdentifier m)) (visitMetaIdW E m)
  | .mapKeyValue e => visitNode E (.mapValue (.mapKeyValue e)) (visitMapEntryW e)
  | .mapValueParenthesizedType t =>
    visitNode E (.mapValue (.mapValueParenthesizedType t)) (visitMapValueAllowingW t)
  | .mapValueAddressType a => visitNode E (.mapValue (.mapValueAddressType a)) (visitAddrTypeW a)

/-- visitor.rs 221-246 -/
def visitTypeArg : NodeTypeArgument → M σ TR
  | .enclosedTypeArgument t => visitNode E (.typeArg (.enclosedTypeArgument t)) (visitScillaTypeW t)
  | .genericTypeArgument m => visitNode E (.typeArg (.genericTypeArgument m)) (visitMetaIdW E m)
  | .templateTypeArgument x => visitNode E (.typeArg (.templateTypeArgument x)) M.cont
  | .addressTypeArgument a => visitNode E (.typeArg (.addressTypeArgument a)) (visitAddrTypeW a)
  | .mapTypeArgument k v =>
    visitNode E (.typeArg (.mapTypeArgument k v)) <|
      (visitMapKeyW k).bind fun
        | .continue_ => visitMapValueW v
        | .skip => M.cont

/-- visitor.rs 248-281 -/
def visitScillaType : NodeScillaType → M σ TR
  | .genericTypeWithArgs m args =>
    visitNode E (.scillaType (.genericTypeWithArgs m args)) <|
      (visitMetaIdW E m).andThen (visitTypeArgs args)
  | .mapType k v =>
    visitNode E (.scillaType (.mapType k v)) <| (visitMapKeyW k).andThen (visitMapValueW v)
  | .functionType a b =>
    visitNode E (.scillaType (.functionType a b)) <|
      (visitScillaTypeW a).andThen (visitScillaTypeW b)
  | .polyFunctionType x t =>
    visitNode E (.scillaType (.polyFunctionType x t)) (visitScillaTypeW t)
  | .enclosedType t => visitNode E (.scillaType (.enclosedType t)) (visitScillaTypeW t)
  | .scillaAddresseType a => visitNode E (.scillaType (.scillaAddresseType a)) (visitAddrTypeW a)
  | .typeVarType x => visitNode E (.scillaType (.typeVarType x)) M.cont

/-- visitor.rs 283-297 -/
def visitMapEntry : NodeTypeMapEntry → M σ TR
  | .mk k v => visitNode E (.mapEntry (.mk k v)) <| (visitMapKeyW k).andThen (visitMapValueW v)

/-- visitor.rs 299-315 -/
def visitAddrField : NodeAddressTypeField → M σ TR
  | .mk i t => visitNode E (.addrField (.mk i t)) <| (visitVarIdW E i).andThen (visitScillaTypeW t)

/-- visitor.rs 317-337 -/
def visitAddrType : NodeAddressType → M σ TR
  | .mk i n fs =>
    visitAddrNode E (.addrType (.mk i n fs)) <| (visitTypeNameIdW E i).andThen (visitAddrFields fs)

/-- visitor.rs 1183-1211 -/
def visitMapValueArgs : NodeTypeMapValueArguments → M σ TR
  | .enclosedTypeMapValue t =>
    visitNode E (.mapValueArgs (.enclosedTypeMapValue t)) (visitMapValueAllowingW t)
  | .genericMapValueArgument m =>
    visitNode E (.mapValueArgs (.genericMapValueArgument m)) (visitMetaIdW E m)
  | .mapKeyValueType k v =>
    visitNode E (.mapValueArgs (.mapKeyValueType k v)) <|
      (visitMapKeyW k).andThen (visitMapValueW v)

/-- visitor.rs 1213-1250 -/
def visitMapValueAllowing : NodeTypeMapValueAllowingTypeArguments → M σ TR
  | .typeMapValueNoArgs v =>
    visitNode E (.mapValueAllowing (.typeMapValueNoArgs v)) (visitMapValueW v)
  | .typeMapValueWithArgs m args =>
    visitNode E (.mapValueAllowing (.typeMapValueWithArgs m args)) <|
      (visitMetaIdW E m).bind fun
        | .continue_ => visitMapValueArgsList args
        | .skip => M.pure .skip

/-- through `WithMetaData`, visitor.rs 13-21 -/
def visitMapKeyW : W NodeTypeMapKey → M σ TR
  | ⟨n, s, e⟩ => withPos E s e (visitMapKey n)
/-- through `WithMetaData`, visitor.rs 13-21 -/
def visitMapValueW : W NodeTypeMapValue → M σ TR
  | ⟨n, s, e⟩ => withPos E s e (visitMapValue n)
/-- through `WithMetaData`, visitor.rs 13-21 -/
def visitTypeArgW : W NodeTypeArgument → M σ TR
  | ⟨n, s, e⟩ => withPos E s e (visitTypeArg n)
/-- through `WithMetaData`, visitor.rs 13-21 -/
def visitScillaTypeW : W NodeScillaType → M σ TR
  | ⟨n, s, e⟩ => withPos E s e (visitScillaType n)
/-- through `WithMetaData`, visitor.rs 13-21 -/
def visitMapEntryW : W NodeTypeMapEntry → M σ TR
  | ⟨n, s, e⟩ => withPos E s e (visitMapEntry n)
/-- through `WithMetaData`, visitor.rs 13-21 -/
def visitAddrFieldW : W NodeAddressTypeField → M σ TR
  | ⟨n, s, e⟩ => withPos E s e (visitAddrField n)
/-- through `WithMetaData`, visitor.rs 13-21 -/
def visitAddrTypeW : W NodeAddressType → M σ TR
  | ⟨n, s, e⟩ => withPos E s e (visitAddrType n)
/-- through `WithMetaData`, visitor.rs 13-21 -/
def visitMapValueArgsW : W NodeTypeMapValueArguments → M σ TR
  | ⟨n, s, e⟩ => withPos E s e (visitMapValueArgs n)
/-- through `WithMetaData`, visitor.rs 13-21 -/
def visitMapValueAllowingW : W NodeTypeMapValueAllowingTypeArguments → M σ TR
  | ⟨n, s, e⟩ => withPos E s e (visitMapValueAllowing n)

/-- `for arg in args { arg.visit(emitter)?; } Ok(Continue)`, visitor.rs 255-258 -/
def visitTypeArgs : List (W NodeTypeArgument) → M σ TR
  | [] => M.cont
  | x :: xs => (visitTypeArgW x).andThen (visitTypeArgs xs)

/-- visitor.rs 323-328 -/
def visitAddrFields : List (W NodeAddressTypeField) → M σ TR
  | [] => M.cont
  | x :: xs => (visitAddrFieldW x).andThen (visitAddrFields xs)

/-- the loop with `break`, visitor.rs 1227-1238 (entered with `ret == Ok(Continue)`) -/
def visitMapValueArgsList : List (W NodeTypeMapValueArguments) → M σ TR
  | [] => M.cont
  | x :: xs =>
    (visitMapValueArgsW x).bind fun
      | .continue_ => visitMapValueArgsList xs
      | .skip => M.pure .skip
end

/-! ### Expressions -/

/-- visitor.rs 514-535 -/
def visitValueLit (n : NodeValueLiteral) : M σ TR :=
  visitNode E (.valueLit n) <|
    match n with
    | .literalInt t _ => visitTypeNameIdW E t
    | .literalEmptyMap k v =>
      (visitMapKeyW E k).andThen fun s => visitMapValueW E v (E.push v.start v.stop s)
    | _ => M.cont

/-- through `WithMetaData`, visitor.rs 13-21 -/
def visitValueLitW (w : W NodeValueLiteral) : M σ TR :=
  withPos E w.start w.stop (visitValueLit E w.node)

/-- visitor.rs 425-448: note the extra `push_source_position` before the second variable -/
def visitMessageEntry (n : NodeMessageEntry) : M σ TR :=
  visitNode E (.messageEntry n) <|
    match n with
    | .messageLiteral i v => (visitVarIdW E i).andThen (visitValueLitW E v)
    | .messageVariable i v =>
      (visitVarIdW E i).andThen fun s => visitVarIdW E v (E.push v.start v.stop s)

/-- through `WithMetaData`, visitor.rs 13-21 -/
def visitMessageEntryW (w : W NodeMessageEntry) : M σ TR :=
  withPos E w.start w.stop (visitMessageEntry E w.node)

/-- visitor.rs 472-491 -/
def visitAtomic (n : NodeAtomicExpression) : M σ TR :=
  visitNode E (.atomic n) <|
    match n with
    | .atomicSid v => visitVarIdW E v
    | .atomicLit l => visitValueLitW E l

/-- through `WithMetaData`, visitor.rs 13-21 -/
def visitAtomicW (w : W NodeAtomicExpression) : M σ TR :=
  withPos E w.start w.stop (visitAtomic E w.node)

/-- visitor.rs 493-512 -/
def visitContractTypeArgs (n : NodeContractTypeArguments) : M σ TR :=
  visitNode E (.contractTypeArgs n) (visitListUntil [] (visitTypeArgW E) n.typeArguments)

/-- through `WithMetaData`, visitor.rs 13-21 -/
def visitContractTypeArgsW (w : W NodeContractTypeArguments) : M σ TR :=
  withPos E w.start w.stop (visitContractTypeArgs E w.node)

/-- visitor.rs 537-550 -/
def visitMapAccess (n : NodeMapAccess) : M σ TR :=
  visitNode E (.mapAccess n) (visitVarIdW E n.identifierName)

/-- through `WithMetaData`, visitor.rs 13-21 -/
def visitMapAccessW (w : W NodeMapAccess) : M σ TR :=
  withPos E w.start w.stop (visitMapAccess E w.node)

mutual
/-- visitor.rs 552-575 -/
def visitPattern : NodePattern → M σ TR
  | .wildcard => visitNode E (.pattern .wildcard) M.cont
  | .binder x => visitNode E (.pattern (.binder x)) M.cont
  | .constructor m args =>
    visitNode E (.pattern (.constructor m args)) <|
      (visitMetaIdW E m).andThen (visitArgPatterns args)

/-- visitor.rs 577-599 -/
def visitArgPattern : NodeArgumentPattern → M σ TR
  | .wildcardArgument => visitNode E (.argPattern .wildcardArgument) M.cont
  | .binderArgument x => visitNode E (.argPattern (.binderArgument x)) M.cont
  | .constructorArgument m => visitNode E (.argPattern (.constructorArgument m)) (visitMetaIdW E m)
  | .patternArgument p => visitNode E (.argPattern (.patternArgument p)) (visitPatternW p)

/-- through `WithMetaData`, visitor.rs 13-21 -/
def visitPatternW : W NodePattern → M σ TR
  | ⟨n, s, e⟩ => withPos E s e (visitPattern n)
/-- through `WithMetaData`, visitor.rs 13-21 -/
def visitArgPatternW : W NodeArgumentPattern → M σ TR
  | ⟨n, s, e⟩ => withPos E s e (visitArgPattern n)
/-- the arguments of a constructor pattern, visitor.rs 552-575 -/
def visitArgPatterns : List (W NodeArgumentPattern) → M σ TR
  | [] => M.cont
  | x :: xs => (visitArgPatternW x).andThen (visitArgPatterns xs)
end

mutual
/-- visitor.rs 339-423: type annotations, the builtin's name and type arguments and the type
arguments of constructor calls are not visited. -/
def visitFullExpr : NodeFullExpression → M σ TR
  | .localVariableDeclaration x e ta b =>
    visitNode E (.fullExpr (.localVariableDeclaration x e ta b)) <|
      (visitFullExprW e).andThen (visitFullExprW b)
  | .functionDeclaration x ta e =>
    visitNode E (.fullExpr (.functionDeclaration x ta e)) (visitFullExprW e)
  | .functionCall f args =>
    visitNode E (.fullExpr (.functionCall f args)) <|
      (visitVarIdW E f).andThen (visitList (visitVarIdW E) args)
  | .expressionAtomic a => visitNode E (.fullExpr (.expressionAtomic a)) (visitAtomicW E a)
  | .expressionBuiltin b targs xs =>
    visitNode E (.fullExpr (.expressionBuiltin b targs xs)) (visitBuiltinArgsW E xs)
  | .message es => visitNode E (.fullExpr (.message es)) (visitList (visitMessageEntryW E) es)
  | .match_ x cs =>
    visitNode E (.fullExpr (.match_ x cs)) <| (visitVarIdW E x).andThen (visitPmExprClauses cs)
  | .constructorCall m targs args =>
    visitNode E (.fullExpr (.constructorCall m targs args)) <|
      (visitMetaIdW E m).andThen (visitList (visitVarIdW E) args)
  | .templateFunction x e => visitNode E (.fullExpr (.templateFunction x e)) (visitFullExprW e)
  | .tApp x targs =>
    visitNode E (.fullExpr (.tApp x targs)) <|
      (visitVarIdW E x).andThen (visitList (visitTypeArgW E) targs)

/-- visitor.rs 450-470: a pattern visit that returns `Ok(SkipChildren)` also skips the
expression and the Exit callback -/
def visitPmExprClause : NodePatternMatchExpressionClause → M σ TR
  | .mk p e =>
    visitNode E (.pmExprClause (.mk p e)) <|
      (visitPatternW E p).bind fun
        | .continue_ => visitFullExprW e
        | .skip => M.pure .skip

/-- through `WithMetaData`, visitor.rs 13-21 -/
def visitFullExprW : W NodeFullExpression → M σ TR
  | ⟨n, s, e⟩ => withPos E s e (visitFullExpr n)
/-- through `WithMetaData`, visitor.rs 13-21 -/
def visitPmExprClauseW : W NodePatternMatchExpressionClause → M σ TR
  | ⟨n, s, e⟩ => withPos E s e (visitPmExprClause n)
/-- the clauses of a match expression, visitor.rs 339-423 -/
def visitPmExprClauses : List (W NodePatternMatchExpressionClause) → M σ TR
  | [] => M.cont
  | x :: xs => (visitPmExprClauseW x).andThen (visitPmExprClauses xs)
end

/-! ### Statements -/

/-- visitor.rs 626-642 -/
def visitBcFetchArgs (n : NodeBlockchainFetchArguments) : M σ TR :=
  visitNode E (.bcFetchArgs n) (visitList (visitVarIdW E) n.arguments)

/-- visitor.rs 751-789 -/
def visitRemoteFetch (n : NodeRemoteFetchStatement) : M σ TR :=
  visitNode E (.remoteFetch n) <|
    match n with
    | .readStateMutable _ _ v => visitVarIdW E v
    | .readStateMutableSpecialId _ _ _ => M.cont
    | .readStateMutableMapAccess _ _ _ ks => visitList (visitMapAccessW E) ks
    | .readStateMutableMapAccessExists _ _ _ ks => visitList (visitMapAccessW E) ks
    | .readStateMutableCastAddress _ v a => (visitVarIdW E v).andThen (visitAddrTypeW E a)

/-- visitor.rs 791-811 -/
def visitComponentId (n : NodeComponentId) : M σ TR :=
  visitNode E (.componentId n) <|
    match n with
    | .withTypeLikeName t => visitTypeNameIdW E t
    | .withRegularId _ => M.cont

/-- through `WithMetaData`, visitor.rs 13-21 -/
def visitComponentIdW (w : W NodeComponentId) : M σ TR :=
  withPos E w.start w.stop (visitComponentId E w.node)

mutual
/-- visitor.rs 644-749 -/
def visitStatement : NodeStatement → M σ TR
  | .load x v => visitNodeRet E (.statement (.load x v)) (visitVarIdW E v).fall
  | .store x v => visitNodeRet E (.statement (.store x v)) (visitVarIdW E v).fall
  | .remoteFetch r => visitNodeRet E (.statement (.remoteFetch r)) (visitRemoteFetch E r).fall
  | .bind x e => visitNodeRet E (.statement (.bind x e)) (visitFullExprW E e).fall
  | .readFromBC x t args =>
    visitNodeRet E (.statement (.readFromBC x t args)) (visitOpt (visitBcFetchArgs E) args).fall
  | .mapGet x ks y =>
    visitNodeRet E (.statement (.mapGet x ks y)) (visitListRet (visitMapAccessW E) ks)
  | .mapUpdate x ks v =>
    visitNodeRet E (.statement (.mapUpdate x ks v)) (visitListRet (visitMapAccessW E) ks)
  | .mapGetExists x ks y =>
    visitNodeRet E (.statement (.mapGetExists x ks y)) (visitListRet (visitMapAccessW E) ks)
  | .mapUpdateDelete x ks =>
    visitNodeRet E (.statement (.mapUpdateDelete x ks)) (visitListRet (visitMapAccessW E) ks)
  | .send v => visitNodeRet E (.statement (.send v)) (visitVarIdW E v).fall
  | .createEvnt v => visitNodeRet E (.statement (.createEvnt v)) (visitVarIdW E v).fall
  | .throw v => visitNodeRet E (.statement (.throw v)) (visitOpt (visitVarIdW E) v).fall
  | .matchStmt x cs =>
    visitNodeRet E (.statement (.matchStmt x cs)) <| (visitVarIdW E x).orReturn (visitPmClauses cs)
  | .callProc c args =>
    visitNodeRet E (.statement (.callProc c args)) <|
      (visitComponentIdW E c).orReturn (visitListRet (visitVarIdW E) args)
  | .iterate x c =>
    visitNodeRet E (.statement (.iterate x c)) <|
      (visitVarIdW E x).orReturn (visitComponentIdW E c).fall
  | .accept => visitNodeRet E (.statement .accept) (M.cont (σ := σ)).fall

/-- visitor.rs 601-624: note the extra `push_source_position` -/
def visitPmClause : NodePatternMatchClause → M σ TR
  | .mk p b =>
    visitNode E (.pmClause (.mk p b)) fun s =>
      ((visitPatternW E p).andThen (visitStmtBlockO b)) (E.push p.start p.stop s)

/-- visitor.rs 867-886 -/
def visitStmtBlock : NodeStatementBlock → M σ TR
  | .mk sts => visitNode E (.stmtBlock (.mk sts)) (visitStatements sts)

/-- through `WithMetaData`, visitor.rs 13-21 -/
def visitPmClauseW : W NodePatternMatchClause → M σ TR
  | ⟨n, s, e⟩ => withPos E s e (visitPmClause n)
/-- through `WithMetaData`, visitor.rs 13-21 -/
def visitStmtBlockW : W NodeStatementBlock → M σ TR
  | ⟨n, s, e⟩ => withPos E s e (visitStmtBlock n)
/-- the block of a match clause, visitor.rs 601-624 -/
def visitStmtBlockO : Option (W NodeStatementBlock) → M σ TR
  | none => M.cont
  | some b => visitStmtBlockW b
/-- the clauses of a match statement, visitor.rs 644-749 -/
def visitPmClauses : List (W NodePatternMatchClause) → M σ Flow
  | [] => M.pure (.fall .continue_)
  | x :: xs => (visitPmClauseW x).orReturn (visitPmClauses xs)
/-- the statements of a block, visitor.rs 867-886 -/
def visitStatements : List NodeStatement → M σ TR
  | [] => M.cont
  | x :: xs => (visitStatement x).andThen (visitStatements xs)
end

/-! ### Declarations -/

/-- visitor.rs 907-923 -/
def visitTypeAnn (n : NodeTypeAnnotation) : M σ TR :=
  visitNode E (.typeAnn n) (visitScillaTypeW E n.typeName)

/-- through `WithMetaData`, visitor.rs 13-21 -/
def visitTypeAnnW (w : W NodeTypeAnnotation) : M σ TR :=
  withPos E w.start w.stop (visitTypeAnn E w.node)

/-- visitor.rs 888-905 -/
def visitTypedId (n : NodeTypedIdentifier) : M σ TR :=
  visitNode E (.typedId n) (visitTypeAnnW E n.annotation)

/-- through `WithMetaData`, visitor.rs 13-21 -/
def visitTypedIdW (w : W NodeTypedIdentifier) : M σ TR :=
  withPos E w.start w.stop (visitTypedId E w.node)

/-- visitor.rs 833-846 -/
def visitParamPair (n : NodeParameterPair) : M σ TR :=
  visitNode E (.paramPair n) (visitTypedIdW E n.identifierWithType)

/-- through `WithMetaData`, visitor.rs 13-21 -/
def visitParamPairW (w : W NodeParameterPair) : M σ TR :=
  withPos E w.start w.stop (visitParamPair E w.node)

/-- visitor.rs 813-831 -/
def visitCompParams (n : NodeComponentParameters) : M σ TR :=
  visitNode E (.compParams n) (visitList (visitParamPairW E) n.parameters)

/-- through `WithMetaData`, visitor.rs 13-21 -/
def visitCompParamsW (w : W NodeComponentParameters) : M σ TR :=
  withPos E w.start w.stop (visitCompParams E w.node)

/-- visitor.rs 848-865 -/
def visitCompBody (n : NodeComponentBody) : M σ TR :=
  visitNode E (.compBody n) (visitOpt (visitStmtBlockW E) n.statementBlock)

/-- through `WithMetaData`, visitor.rs 13-21 -/
def visitCompBodyW (w : W NodeComponentBody) : M σ TR :=
  withPos E w.start w.stop (visitCompBody E w.node)

/-- visitor.rs 1156-1181 -/
def visitTypeAlt (n : NodeTypeAlternativeClause) : M σ TR :=
  visitNode E (.typeAlt n) <|
    match n with
    | .clauseType t => visitTypeNameIdW E t
    | .clauseTypeWithArgs t args =>
      (visitTypeNameIdW E t).andThen (visitList (visitTypeArgW E) args)

/-- through `WithMetaData`, visitor.rs 13-21 -/
def visitTypeAltW (w : W NodeTypeAlternativeClause) : M σ TR :=
  withPos E w.start w.stop (visitTypeAlt E w.node)

/-- visitor.rs 984-1026: after visiting the expression of a `let` definition the method panics
(`unimplemented!()`, line 997) -/
def visitLibrarySingle (n : NodeLibrarySingleDefinition) : M σ TR :=
  visitNode E (.librarySingle n) <|
    match n with
    | .letDefinition _ _ e => (visitFullExprW E e).andThen M.panic
    | .typeDefinition t cs =>
      (visitTypeNameIdW E t).andThen (visitOpt (visitList (visitTypeAltW E)) cs)

/-- through `WithMetaData`, visitor.rs 13-21 -/
def visitLibrarySingleW (w : W NodeLibrarySingleDefinition) : M σ TR :=
  withPos E w.start w.stop (visitLibrarySingle E w.node)

/-- visitor.rs 960-983 (the library's name is not visited) -/
def visitLibraryDef (n : NodeLibraryDefinition) : M σ TR :=
  visitNode E (.libraryDef n) (visitList (visitLibrarySingleW E) n.definitions)

/-- through `WithMetaData`, visitor.rs 13-21 -/
def visitLibraryDefW (w : W NodeLibraryDefinition) : M σ TR :=
  withPos E w.start w.stop (visitLibraryDef E w.node)

/-- visitor.rs 1058-1074 -/
def visitContractField (n : NodeContractField) : M σ TR :=
  visitNode E (.contractField n) <|
    (visitTypedIdW E n.typedIdentifier).andThen (visitFullExprW E n.rightHandSide)

/-- through `WithMetaData`, visitor.rs 13-21 -/
def visitContractFieldW (w : W NodeContractField) : M σ TR :=
  withPos E w.start w.stop (visitContractField E w.node)

/-- visitor.rs 1075-1090 -/
def visitWithConstraint (n : NodeWithConstraint) : M σ TR :=
  visitNode E (.withConstraint n) (visitFullExprW E n.expression)

/-- through `WithMetaData`, visitor.rs 13-21 -/
def visitWithConstraintW (w : W NodeWithConstraint) : M σ TR :=
  withPos E w.start w.stop (visitWithConstraint E w.node)

/-- visitor.rs 1114-1136 -/
def visitProcDef (n : NodeProcedureDefinition) : M σ TR :=
  visitNode E (.procDef n) <|
    (visitComponentIdW E n.name).andThen <|
      (visitCompParamsW E n.parameters).andThen (visitCompBodyW E n.body)

/-- through `WithMetaData`, visitor.rs 13-21 -/
def visitProcDefW (w : W NodeProcedureDefinition) : M σ TR :=
  withPos E w.start w.stop (visitProcDef E w.node)

/-- visitor.rs 1137-1154 -/
def visitTransDef (n : NodeTransitionDefinition) : M σ TR :=
  visitNode E (.transDef n) <|
    (visitComponentIdW E n.name).andThen <|
      (visitCompParamsW E n.parameters).andThen (visitCompBodyW E n.body)

/-- through `WithMetaData`, visitor.rs 13-21 -/
def visitTransDefW (w : W NodeTransitionDefinition) : M σ TR :=
  withPos E w.start w.stop (visitTransDef E w.node)

/-- visitor.rs 1091-1113 -/
def visitCompDef (n : NodeComponentDefinition) : M σ TR :=
  visitNode E (.compDef n) <|
    match n with
    | .transitionComponent d => visitTransDefW E d
    | .procedureComponent d => visitProcDefW E d

/-- through `WithMetaData`, visitor.rs 13-21 -/
def visitCompDefW (w : W NodeComponentDefinition) : M σ TR :=
  withPos E w.start w.stop (visitCompDef E w.node)

/-- visitor.rs 1027-1056 (the contract's name is not visited) -/
def visitContractDef (n : NodeContractDefinition) : M σ TR :=
  visitNode E (.contractDef n) <|
    (visitCompParamsW E n.parameters).andThen <|
      (visitOpt (visitWithConstraintW E) n.constraint).andThen <|
        (visitList (visitContractFieldW E) n.fields).andThen <|
          visitList (visitCompDefW E) n.components

/-- through `WithMetaData`, visitor.rs 13-21 -/
def visitContractDefW (w : W NodeContractDefinition) : M σ TR :=
  withPos E w.start w.stop (visitContractDef E w.node)

/-- visitor.rs 925-958 -/
def visitProgram (n : NodeProgram) : M σ TR :=
  visitNodeRet E (.program n) <|
    (visitOpt (visitImportDeclsW E) n.importDeclarations).orReturn <|
      (visitOpt (visitLibraryDefW E) n.libraryDefinition).orReturn <|
        (visitContractDefW E n.contractDefinition).fall

/-- `AstVisitor::visit` of a node of any kind (visitor.rs 10 and 23-1250) -/
def visit : AnyNode → M σ TR
  | .byteStr n => visitByteStr E n
  | .typeNameId n => visitTypeNameId E n
  | .importedName n => visitImportedName E n
  | .importDecls n => visitImportDecls E n
  | .metaId n => visitMetaId E n
  | .varId n => visitVarId E n
  | .builtinArgs n => visitBuiltinArgs E n
  | .mapKey n => visitMapKey E n
  | .mapValue n => visitMapValue E n
  | .typeArg n => visitTypeArg E n
  | .scillaType n => visitScillaType E n
  | .mapEntry n => visitMapEntry E n
  | .addrField n => visitAddrField E n
  | .addrType n => visitAddrType E n
  | .fullExpr n => visitFullExpr E n
  | .messageEntry n => visitMessageEntry E n
  | .pmExprClause n => visitPmExprClause E n
  | .atomic n => visitAtomic E n
  | .contractTypeArgs n => visitContractTypeArgs E n
  | .valueLit n => visitValueLit E n
  | .mapAccess n => visitMapAccess E n
  | .pattern n => visitPattern E n
  | .argPattern n => visitArgPattern E n
  | .pmClause n => visitPmClause E n
  | .bcFetchArgs n => visitBcFetchArgs E n
  | .statement n => visitStatement E n
  | .remoteFetch n => visitRemoteFetch E n
  | .componentId n => visitComponentId E n
  | .compParams n => visitCompParams E n
  | .paramPair n => visitParamPair E n
  | .compBody n => visitCompBody E n
  | .stmtBlock n => visitStmtBlock E n
  | .typedId n => visitTypedId E n
  | .typeAnn n => visitTypeAnn E n
  | .program n => visitProgram E n
  | .libraryDef n => visitLibraryDef E n
  | .librarySingle n => visitLibrarySingle E n
  | .contractDef n => visitContractDef E n
  | .contractField n => visitContractField E n
  | .withConstraint n => visitWithConstraint E n
  | .compDef n => visitCompDef E n
  | .procDef n => visitProcDef E n
  | .transDef n => visitTransDef E n
  | .typeAlt n => visitTypeAlt E n
  | .mapValueArgs n => visitMapValueArgs E n
  | .mapValueAllowing n => visitMapValueAllowing E n

end

end Verif
