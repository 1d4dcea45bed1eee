import Verif.Spec.Interface
/-
What the tool makes of *every* program, including those whose interface has a type that `Spec/Interface`
gives no meaning (`Event`, an unreadable type inside an address type, a field of an address type that is
not a plain name).

The tool reads types in postfix order with the help of a pile.  Usually a type leaves exactly itself on the pile and
the reader takes it away at once.  The programs without a meaning in `Spec/Interface` are those where
something is missing on the pile, so that an older thing is taken instead (or nothing is there, or a
thing of the wrong sort: an error).  Nothing here refers to the emitter, the visitor or `SrType`.
-/
namespace Verif.Pile

/-- a thing on the pile -/
inductive Thing where
  /-- a name of a type, a namespace, or the contract's name -/
  | name (x : Str)
  /-- the name of the transition that is being read -/
  | transition (x : Str)
  /-- a type; `none`: `Option`, `List`, `Pair` or `Map` with too few arguments -/
  | type (t : Option Ty)
  /-- a declared variable -/
  | decl (f : Field)

/-- the three sorts of things the reader asks for -/
inductive Wanted where
  | name | type | decl
deriving DecidableEq

/-- What becomes of a reading step: it goes on with a pile; it fails because the thing on top is not of the wanted
sort (`found`; that thing is lost), or because the pile is empty; it panics. -/
inductive Verdict (α : Type) where
  | fine (a : α) (pile : List Thing)
  | error (wanted : Wanted) (found : Option Thing) (pile : List Thing)
  | panic

abbrev Step (α : Type) := List Thing → Verdict α

def Step.pure {α : Type} (a : α) : Step α := fun p => .fine a p

def Step.bind {α β : Type} (m : Step α) (f : α → Step β) : Step β := fun p =>
  match m p with
  | .fine a p => f a p
  | .error w x p => .error w x p
  | .panic => .panic

instance : Monad Step where
  pure := Step.pure
  bind := Step.bind

def put (x : Thing) : Step Unit := fun p => .fine () (x :: p)

def panic {α : Type} : Step α := fun _ => .panic

/-- Take a name of either sort; the flag says if it is the name of a transition. -/
def takeName : Step (Str × Bool)
  | .name x :: p => .fine (x, false) p
  | .transition x :: p => .fine (x, true) p
  | x :: p => .error .name (some x) p
  | [] => .error .name none []

def takeType : Step (Option Ty)
  | .type t :: p => .fine t p
  | x :: p => .error .type (some x) p
  | [] => .error .type none []

def takeDecl : Step Field
  | .decl f :: p => .fine f p
  | x :: p => .error .decl (some x) p
  | [] => .error .decl none []

/-- an error (not a panic) is forgotten, what it did to the pile is not -/
def ignoringErrors (m : Step Unit) : Step Unit := fun p =>
  match m p with
  | .error _ _ p => .fine () p
  | v => v

/-- `n` in `ByStr<n>`: digits, also with a plus sign (which no written program has), less than 2^64 -/
def byStrSize : Str → Option Nat
  | '+' :: ds => size ds
  | ds => size ds
where
  size (ds : Str) : Option Nat :=
    if ds ≠ [] ∧ ds.all isDec ∧ digitsValue ds < 2 ^ 64 then some (digitsValue ds) else none

/-- A type name applied to arguments: `ByStr<n>`, or as in `Spec/Interface`. -/
def applied (name : Str) (args : List (Option Ty)) : Option Ty :=
  match name with
  | 'B' :: 'y' :: 'S' :: 't' :: 'r' :: '+' :: ds =>
    match byStrSize ('+' :: ds) with
    | some n => some (.byStrX n)
    | none => some (.other name)
  | _ => namedType name args

/-- `T with … end` -/
def address (name tag : Str) (fields : List Field) : Option Ty :=
  if name = str! "ByStr20" then some (.byStr20With tag fields) else applied name []

/-- the top name becomes a type -/
def asType : Step Unit := do
  let n ← takeName
  put (.type (applied n.1 []))

/-- the top two types become a map -/
def asMap : Step Unit := do
  let v ← takeType
  let k ← takeType
  put (.type (applied (str! "Map") [k, v]))

/-- a name: `Event` leaves nothing -/
def typeName : NodeTypeNameIdentifier → Step Unit
  | .byteStringType b => put (.name b.display)
  | .eventType => pure ()
  | .typeOrEnumLikeIdentifier s => put (.name s.node)

/-- a qualified name: `M.T` leaves two names -/
def qualified : NodeMetaIdentifier → Step Unit
  | .metaName n => typeName n.node
  | .metaNameInNamespace l r => do typeName l.node; typeName r.node
  | .metaNameInHexspace _ n => typeName n.node
  | .byteString => put (.name (str! "ByStr"))

mutual
def key : NodeTypeMapKey → Step Unit
  | .genericMapKey m => do qualified m.node; asType
  | .enclosedGenericId m => do qualified m.node; asType
  | .enclosedAddressMapKeyType a => do addressW a; asType
  | .addressMapKeyType a => do addressW a; asType
def value : NodeTypeMapValue → Step Unit
  | .mapValueTypeOrEnumLikeIdentifier m => do qualified m.node; asType
  | .mapKeyValue e => do entryW e; asMap
  | .mapValueParenthesizedType t => mvW t
  | .mapValueAddressType a => addressW a
def arg : NodeTypeArgument → Step Unit
  | .enclosedTypeArgument t => typeW t
  | .genericTypeArgument m => do qualified m.node; asType
  | .templateTypeArgument _ => panic
  | .addressTypeArgument a => addressW a
  | .mapTypeArgument k v => do keyW k; valueW v; asMap
/-- a type: the name of a type with arguments is taken from the pile before its arguments are read -/
def type : NodeScillaType → Step Unit
  | .genericTypeWithArgs m as => do
    qualified m.node
    let n ← takeName
    let ts ← args as
    put (.type (applied n.1 ts))
  | .mapType k v => do keyW k; valueW v; asMap
  | .functionType _ _ => panic
  | .enclosedType t => typeW t
  | .scillaAddresseType a => addressW a
  | .polyFunctionType _ _ => panic
  | .typeVarType _ => panic
def entry : NodeTypeMapEntry → Step Unit
  | .mk k v => do keyW k; valueW v
/-- a field of an address type: one that is not a plain name leaves nothing and is not looked at -/
def field : NodeAddressTypeField → Step Unit
  | .mk ⟨.variableName x, _, _⟩ t => do
    typeW t
    match ← takeType with
    | some ty => put (.decl (.mk x.node ty))
    | none => panic
  | .mk _ _ => pure ()
def addressType : NodeAddressType → Step Unit
  | .mk i tag fs => ignoringErrors do
    typeName i.node
    let n ← takeName
    let xs ← fields fs
    put (.type (address n.1 tag.node xs))
def mva : NodeTypeMapValueArguments → Step Unit
  | .enclosedTypeMapValue t => mvW t
  | .genericMapValueArgument m => do qualified m.node; asType
  | .mapKeyValueType _ _ => panic
def mv : NodeTypeMapValueAllowingTypeArguments → Step Unit
  | .typeMapValueNoArgs v => valueW v
  | .typeMapValueWithArgs m as => do
    qualified m.node
    let n ← takeName
    let ts ← mvas as
    put (.type (applied n.1 ts))
def keyW : W NodeTypeMapKey → Step Unit
  | ⟨n, _, _⟩ => key n
def valueW : W NodeTypeMapValue → Step Unit
  | ⟨n, _, _⟩ => value n
def argW : W NodeTypeArgument → Step Unit
  | ⟨n, _, _⟩ => arg n
def typeW : W NodeScillaType → Step Unit
  | ⟨n, _, _⟩ => type n
def entryW : W NodeTypeMapEntry → Step Unit
  | ⟨n, _, _⟩ => entry n
def fieldW : W NodeAddressTypeField → Step Unit
  | ⟨n, _, _⟩ => field n
def addressW : W NodeAddressType → Step Unit
  | ⟨n, _, _⟩ => addressType n
def mvaW : W NodeTypeMapValueArguments → Step Unit
  | ⟨n, _, _⟩ => mva n
def mvW : W NodeTypeMapValueAllowingTypeArguments → Step Unit
  | ⟨n, _, _⟩ => mv n
def args : List (W NodeTypeArgument) → Step (List (Option Ty))
  | [] => pure []
  | a :: as => do
    argW a
    let t ← takeType
    let ts ← args as
    pure (t :: ts)
def mvas : List (W NodeTypeMapValueArguments) → Step (List (Option Ty))
  | [] => pure []
  | a :: as => do
    mvaW a
    let t ← takeType
    let ts ← mvas as
    pure (t :: ts)
def fields : List (W NodeAddressTypeField) → Step (List Field)
  | [] => pure []
  | f :: fs => do
    fieldW f
    let x ← takeDecl
    let xs ← fields fs
    pure (x :: xs)
end

/-- `x : T` leaves a declaration -/
def typed (n : NodeTypedIdentifier) : Step Unit := do
  typeW n.annotation.node.typeName
  match ← takeType with
  | some t => put (.decl (.mk n.identifierName.node t))
  | none => panic

/-- declarations that are taken at once -/
def declared : List NodeTypedIdentifier → Step (List Field)
  | [] => pure []
  | n :: ns => do
    typed n
    let x ← takeDecl
    let xs ← declared ns
    pure (x :: xs)

/-- declarations that stay on the pile -/
def again : List NodeTypedIdentifier → Step Unit
  | [] => pure ()
  | n :: ns => do typed n; again ns

/-- a transition: the name taken after its parameters must be the name of a transition -/
def transition (t : NodeTransitionDefinition) : Step Transition := do
  put (.transition (componentName t.name.node))
  let ps ← declared (typedOf t.parameters.node.parameters)
  let n ← takeName
  if n.2 then pure ⟨n.1, ps⟩ else panic

def transitions : List NodeTransitionDefinition → Step (List Transition)
  | [] => pure []
  | t :: ts => do
    let r ← transition t
    let rs ← transitions ts
    pure (r :: rs)

/-- A contract: the name stays on the pile; the contract parameters are read twice, the second time for nothing. -/
def contract (p : NodeProgram) : Step Contract := do
  let c := p.contractDefinition.node
  typeName c.contractName.node
  let ps ← declared (typedOf c.parameters.node.parameters)
  again (typedOf c.parameters.node.parameters)
  let fs ← declared (fieldTypedOf c.fields)
  let ts ← transitions (transitionsOf c.components)
  pure ⟨c.contractName.node.display, ps, fs, ts⟩

end Verif.Pile
