import Verif.Model.Ast
import Verif.Model.Types
/-
Specification of the interface of a contract, directly on the syntax tree: which type a written
type denotes, and which contract (name, parameters, fields, transitions) a program declares.
Nothing here refers to the emitter, its stack, the visitor or `SrType`.
-/
namespace Verif

/-- Why a written type denotes nothing for the tool.
* `panics`: it contains, in a position that is looked at, a function type, a type variable, or one of
  the other forms the tool does not implement;
* `fails`: it contains (outside address types) a map with an address type as its key or with a
  namespaced name in its value, which are errors for the tool;
* `misread`: it contains the name `Event`, a failing type inside an address type, or an address type with
  a field that is not a plain name: these are not given a meaning here. -/
inductive Problem where
  | panics
  | fails
  | misread

/-- What a written type denotes for the tool.
* `clean left (some t)`: the type `t`, where a namespaced name `M.T` is read as `T`; `left` are the
  namespaces that were ignored, the last one first;
* `clean left none`: `Option`, `List`, `Pair` (or `Map`) with too few arguments;
* `bad`: nothing. -/
inductive Reading where
  | clean (left : List Str) (t : Option Ty)
  | bad (why : Problem)

/-- value of a string of decimal digits -/
def digitsValue (ds : Str) : Nat := ds.foldl (fun n c => n * 10 + (c.toNat - 48)) 0

def isDec (c : Char) : Bool := 48 ≤ c.toNat && c.toNat ≤ 57

/-- the built-in types without arguments -/
def builtinTypes : List (Str × Ty) :=
  [(str! "Int32", .int32), (str! "Int64", .int64), (str! "Int128", .int128),
   (str! "Int256", .int256), (str! "Uint32", .uint32), (str! "Uint64", .uint64),
   (str! "Uint128", .uint128), (str! "Uint256", .uint256), (str! "String", .string),
   (str! "BNum", .bNum), (str! "Bool", .bool), (str! "ByStr", .byStr), (str! "ByStr20", .byStr20)]

/-- A name that is not built in: `ByStr<n>` (with n < 2^64) or a user-defined type. -/
def userType (name : Str) : Ty :=
  match name with
  | 'B' :: 'y' :: 'S' :: 't' :: 'r' :: ds =>
    if ds ≠ [] ∧ ds.all isDec ∧ digitsValue ds < 2 ^ 64 then .byStrX (digitsValue ds)
    else .other name
  | _ => .other name

/-- A type name applied to arguments (`none` among the arguments: an argument that is itself
ill-formed).  Superfluous arguments are ignored: `Option` and `List` take the last one, `Pair` the
last two, all other names none. -/
def namedType (name : Str) (args : List (Option Ty)) : Option Ty :=
  match builtinTypes.lookup name with
  | some t => some t
  | none =>
    if name = str! "Option" then
      match args.reverse with
      | some t :: _ => some (.option t)
      | _ => none
    else if name = str! "List" then
      match args.reverse with
      | some t :: _ => some (.list t)
      | _ => none
    else if name = str! "Pair" then
      match args.reverse with
      | some b :: some a :: _ => some (.pair a b)
      | _ => none
    else if name = str! "Map" then
      match args.reverse with
      | some v :: some k :: _ => some (.map k v)
      | _ => none
    else some (userType name)

/-- `ByStr20 with … end` is an address type; on any other name the `with … end` is ignored. -/
def addressType (name tag : Str) (fields : List Field) : Option Ty :=
  if name = str! "ByStr20" then some (.byStr20With tag fields) else namedType name []

/-- The name of a type, if it is one the tool understands (`+` cannot occur in a lexed name). -/
def plainName : NodeTypeNameIdentifier → Option Str
  | .byteStringType b => if '+' ∈ b.display then none else some b.display
  | .eventType => none
  | .typeOrEnumLikeIdentifier s => if '+' ∈ s.node then none else some s.node

/-- The name of a qualified type with the namespaces that are ignored: `M.T` is read as `T`, ignoring `M`;
`0x….T` is read as `T`. -/
def metaText : NodeMetaIdentifier → Option (List Str × Str)
  | .metaName n => (plainName n.node).map fun x => ([], x)
  | .metaNameInNamespace l r =>
    match plainName l.node, plainName r.node with
    | some a, some b => some ([a], b)
    | _, _ => none
  | .metaNameInHexspace _ n => (plainName n.node).map fun x => ([], x)
  | .byteString => some ([], str! "ByStr")

/-- a name without arguments -/
def readName (m : NodeMetaIdentifier) : Reading :=
  match metaText m with
  | some (left, n) => .clean left (namedType n [])
  | none => .bad .misread

/-- a name applied to arguments, which are looked at from left to right -/
def applyName (m : NodeMetaIdentifier) (args : List Reading) : Reading :=
  match metaText m with
  | none => .bad .misread
  | some (left, n) => go n args left []
where
  go (n : Str) : List Reading → List Str → List (Option Ty) → Reading
    | [], left, acc => .clean left (namedType n acc)
    | .clean l t :: rs, left, acc => go n rs (l ++ left) (acc ++ [t])
    | .bad w :: _, _, _ => .bad w

/-- `Map k v` -/
def readMap : Reading → Reading → Reading
  | .clean l (some k), .clean [] (some v) => .clean l (some (.map k v))
  | .clean l _, .clean [] _ => .clean l none
  | .clean _ _, .clean (_ :: _) _ => .bad .fails
  | .clean _ _, .bad w => .bad w
  | .bad w, _ => .bad w

/-- an address type used as the key of a map -/
def asKey : Reading → Reading
  | .clean _ _ => .bad .fails
  | .bad w => .bad w

mutual
def readKey : NodeTypeMapKey → Reading
  | .genericMapKey m => readName m.node
  | .enclosedGenericId m => readName m.node
  | .enclosedAddressMapKeyType a => asKey (readAddrW a)
  | .addressMapKeyType a => asKey (readAddrW a)
def readValue : NodeTypeMapValue → Reading
  | .mapValueTypeOrEnumLikeIdentifier m => readName m.node
  | .mapKeyValue e => readEntryW e
  | .mapValueParenthesizedType t => readMvW t
  | .mapValueAddressType a => readAddrW a
def readArg : NodeTypeArgument → Reading
  | .enclosedTypeArgument t => readTypeW t
  | .genericTypeArgument m => readName m.node
  | .templateTypeArgument _ => .bad .panics
  | .addressTypeArgument a => readAddrW a
  | .mapTypeArgument k v => readMap (readKeyW k) (readValueW v)
def readType : NodeScillaType → Reading
  | .genericTypeWithArgs m args => applyName m.node (readArgs args)
  | .mapType k v => readMap (readKeyW k) (readValueW v)
  | .functionType _ _ => .bad .panics
  | .enclosedType t => readTypeW t
  | .scillaAddresseType a => readAddrW a
  | .polyFunctionType _ _ => .bad .panics
  | .typeVarType _ => .bad .panics
def readEntry : NodeTypeMapEntry → Reading
  | .mk k v => readMap (readKeyW k) (readValueW v)
def readAddr : NodeAddressType → Reading
  | .mk i tag fs =>
    match plainName i.node, readFields fs with
    | some n, .ok (left, fields) => .clean left (addressType n tag.node fields)
    | some _, .error w => .bad w
    | none, _ => .bad .misread
def readMva : NodeTypeMapValueArguments → Reading
  | .enclosedTypeMapValue t => readMvW t
  | .genericMapValueArgument m => readName m.node
  | .mapKeyValueType _ _ => .bad .panics
def readMv : NodeTypeMapValueAllowingTypeArguments → Reading
  | .typeMapValueNoArgs v => readValueW v
  | .typeMapValueWithArgs m args => applyName m.node (readMvas args)
def readKeyW : W NodeTypeMapKey → Reading
  | ⟨n, _, _⟩ => readKey n
def readValueW : W NodeTypeMapValue → Reading
  | ⟨n, _, _⟩ => readValue n
def readArgW : W NodeTypeArgument → Reading
  | ⟨n, _, _⟩ => readArg n
def readTypeW : W NodeScillaType → Reading
  | ⟨n, _, _⟩ => readType n
def readEntryW : W NodeTypeMapEntry → Reading
  | ⟨n, _, _⟩ => readEntry n
def readAddrW : W NodeAddressType → Reading
  | ⟨n, _, _⟩ => readAddr n
def readMvaW : W NodeTypeMapValueArguments → Reading
  | ⟨n, _, _⟩ => readMva n
def readMvW : W NodeTypeMapValueAllowingTypeArguments → Reading
  | ⟨n, _, _⟩ => readMv n
def readArgs : List (W NodeTypeArgument) → List Reading
  | [] => []
  | a :: as => readArgW a :: readArgs as
def readMvas : List (W NodeTypeMapValueArguments) → List Reading
  | [] => []
  | a :: as => readMvaW a :: readMvas as
/-- the fields of an address type: the first one that is not clean decides -/
def readFields : List (W NodeAddressTypeField) → Except Problem (List Str × List Field)
  | [] => .ok ([], [])
  | ⟨.mk ⟨.variableName x, _, _⟩ t, _, _⟩ :: fs =>
    match readTypeW t with
    | .clean left (some ty) =>
      match readFields fs with
      | .ok (left', l) => .ok (left' ++ left, .mk x.node ty :: l)
      | .error w => .error w
    | .clean _ none => .error .panics
    | .bad .panics => .error .panics
    | .bad _ => .error .misread
  | _ :: _ => .error .misread
end

/-! ### The interface of a program -/

/-- a typed identifier `x : T` whose type has a clean reading and no namespaces -/
def readTyped (n : NodeTypedIdentifier) : Option Field :=
  match readTypeW n.annotation.node.typeName with
  | .clean [] (some t) => some (.mk n.identifierName.node t)
  | _ => none

/-- the typed identifiers of a parameter list -/
def typedOf (ps : List (W NodeParameterPair)) : List NodeTypedIdentifier :=
  ps.map (·.node.identifierWithType.node)

def fieldTypedOf (fs : List (W NodeContractField)) : List NodeTypedIdentifier :=
  fs.map (·.node.typedIdentifier.node)

/-- the name of a transition or procedure -/
def componentName : NodeComponentId → Str
  | .withTypeLikeName n => n.node.display
  | .withRegularId s => s.node

/-- the transitions among the components -/
def transitionsOf (cs : List (W NodeComponentDefinition)) : List NodeTransitionDefinition :=
  cs.filterMap fun c =>
    match c.node with
    | .transitionComponent t => some t.node
    | .procedureComponent _ => none

/-- the same function on every element, if it succeeds on all of them -/
def allSome {α β : Type} (f : α → Option β) : List α → Option (List β)
  | [] => some []
  | a :: as =>
    match f a, allSome f as with
    | some b, some bs => some (b :: bs)
    | _, _ => none

def readTransition (t : NodeTransitionDefinition) : Option Transition :=
  (allSome readTyped (typedOf t.parameters.node.parameters)).map fun ps =>
    ⟨componentName t.name.node, ps⟩

/-- The interface a program declares: `none` if some type of it is not clean. -/
def interfaceOf (p : NodeProgram) : Option Contract :=
  let c := p.contractDefinition.node
  match allSome readTyped (typedOf c.parameters.node.parameters),
      allSome readTyped (fieldTypedOf c.fields), allSome readTransition (transitionsOf c.components) with
  | some ps, some fs, some ts => some ⟨c.contractName.node.display, ps, fs, ts⟩
  | _, _, _ => none

/-- All typed identifiers of the interface, in source order. -/
def interfaceTyped (p : NodeProgram) : List NodeTypedIdentifier :=
  let c := p.contractDefinition.node
  typedOf c.parameters.node.parameters ++ fieldTypedOf c.fields ++
    (transitionsOf c.components).flatMap fun t => typedOf t.parameters.node.parameters

/-- a typed identifier `x : Event` -/
def isEvent (n : NodeTypedIdentifier) : Bool :=
  match n.annotation.node.typeName.node with
  | .genericTypeWithArgs ⟨.metaName ⟨.eventType, _, _⟩, _, _⟩ [] => true
  | _ => false

/-! ### What becomes of a program -/

/-- typed identifiers in order, and the namespaces ignored in their types: the first one whose type has
no clean reading decides -/
def readAll : List NodeTypedIdentifier → Except Problem (List Str × List Field)
  | [] => .ok ([], [])
  | n :: ns =>
    match readTypeW n.annotation.node.typeName with
    | .clean left (some t) =>
      match readAll ns with
      | .ok (left', l) => .ok (left' ++ left, .mk n.identifierName.node t :: l)
      | .error w => .error w
    | .clean _ none => .error .panics
    | .bad w => .error w

/-- transitions in order: no namespace may be ignored -/
def readTransitions : List NodeTransitionDefinition → Except Problem (List Transition)
  | [] => .ok []
  | t :: ts =>
    match readAll (typedOf t.parameters.node.parameters) with
    | .error w => .error w
    | .ok (_ :: _, _) => .error .panics
    | .ok ([], ps) =>
      match readTransitions ts with
      | .ok l => .ok (⟨componentName t.name.node, ps⟩ :: l)
      | .error w => .error w

/-- What the tool makes of a program: a contract, or the first problem, in the order contract
parameters, fields, transitions. -/
def readProgram (p : NodeProgram) : Except Problem Contract :=
  let c := p.contractDefinition.node
  match readAll (typedOf c.parameters.node.parameters) with
  | .error w => .error w
  | .ok (_, ps) =>
    match readAll (fieldTypedOf c.fields) with
    | .error w => .error w
    | .ok (_, fs) =>
      match readTransitions (transitionsOf c.components) with
      | .error w => .error w
      | .ok ts => .ok ⟨c.contractName.node.display, ps, fs, ts⟩

end Verif
