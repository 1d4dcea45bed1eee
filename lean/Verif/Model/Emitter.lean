import Verif.Model.Visitor
import Verif.Model.Types
/-
The emitter: src/simplified_representation/emitter.rs, primitives.rs.

`SrEmitter` implements the callbacks by calling `visit` on sub-nodes with itself as the visitor.
This recursion goes through the visitor, so the model ties the knot with fuel: `srEmitter dbg k`
answers callbacks by visiting with `srEmitter dbg (k - 1)`.  `Props/Emitter.lean` proves that the
fuel used by `emitProgram` is always enough (any larger fuel gives the same result).

The text of the "Expected ..., but found {:?}" errors contains Rust's `Debug` rendering of a stack
object; the rendering is a parameter `dbg`.
-/
namespace Verif

/-- `enum SrIdentifierKind`, primitives.rs 4-29: only the two kinds the emitter ever pushes. -/
inductive IdKind where
  | unknown | componentName
deriving DecidableEq, Repr

/-- `enum StackObject`, emitter.rs 10-15.  An `SrIdentifier` (primitives.rs 32-39) is its
`unresolved` name and its `kind`; the other fields are always `None` / `false` on the stack. -/
inductive StackObj where
  | ident (unresolved : Str) (kind : IdKind)
  | varDecl (f : Field)
  | typeDef (t : SrType)

/-- `struct SrEmitter`, emitter.rs 19-23; the head of `stack` is the top. -/
structure SrState where
  stack : List StackObj
  contract : Contract

/-- `SrEmitter::default()` (emitter.rs 19-23, contract.rs 52) -/
def SrState.init : SrState := ⟨[], Contract.empty⟩

section
variable (dbg : StackObj → Str)

/-- `self.stack.push(x)`, e.g. emitter.rs 171-172 -/
def SrState.pushObj (x : StackObj) : M SrState Unit := fun s => ({ s with stack := x :: s.stack }, .ok ())

/-- `pop_ir_identifier`, emitter.rs 26-39 -/
def popIdent : M SrState (Str × IdKind) := fun s =>
  match s.stack with
  | [] => (s, .err (str! "Expected symbol name, but found nothing."))
  | .ident n k :: st => ({ s with stack := st }, .ok (n, k))
  | x :: st =>
    ({ s with stack := st }, .err (str! "Expected symbol name, but found " ++ dbg x ++ str! "."))

/-- `pop_variable_declaration`, emitter.rs 41-57 -/
def popVar : M SrState Field := fun s =>
  match s.stack with
  | [] => (s, .err (str! "Expected variable declaration, but found nothing."))
  | .varDecl f :: st => ({ s with stack := st }, .ok f)
  | x :: st =>
    ({ s with stack := st },
      .err (str! "Expected variable declaration, but found " ++ dbg x ++ str! "."))

/-- `pop_type_definition`, emitter.rs 59-75 -/
def popType : M SrState SrType := fun s =>
  match s.stack with
  | [] => (s, .err (str! "Expected type definition, but found nothing."))
  | .typeDef t :: st => ({ s with stack := st }, .ok t)
  | x :: st =>
    ({ s with stack := st },
      .err (str! "Expected type definition, but found " ++ dbg x ++ str! "."))

/-- `Ok(TraversalResult::SkipChildren)` (e.g. emitter.rs 173) -/
def M.skip {σ : Type} : M σ TR := M.pure .skip

/-- `let identifier = self.pop_ir_identifier()?;
self.stack.push(StackObject::TypeDefinition(identifier.into()));` (e.g. emitter.rs 170-172) -/
def identToType : M SrState Unit :=
  (popIdent dbg).bind fun (n, _) => SrState.pushObj (.typeDef (SrType.ofName n))

/-- `let value = pop_type_definition()?; let key = pop_type_definition()?; push Map`
(emitter.rs 189-196, 234-241, 276-283) -/
def makeMap : M SrState Unit :=
  (popType dbg).bind fun v =>
    (popType dbg).bind fun k =>
      SrState.pushObj (.typeDef (.mk (str! "Map") [k, v] none))

/-- `typename.into()` (`From<SrType> for Type`), which may panic (type.rs 75-122, used e.g. at emitter.rs 320) -/
def intoType (t : SrType) : M SrState Ty := fun s =>
  match t.toTy with
  | some ty => (s, .ok ty)
  | none => (s, .panic)

/-- `for arg in args { arg.visit(self)?; let sub_type = self.pop_type_definition()?;
main_type.push_sub_type(sub_type); }` (emitter.rs 261-265, 710-714); returns the extended type -/
def collectArgs {α : Type} (visitArg : α → M SrState TR) : List α → SrType → M SrState SrType
  | [], main => M.pure main
  | a :: as, main =>
    (visitArg a).andThen <|
      (popType dbg).bind fun t => collectArgs visitArg as (main.pushSubType t)

/-- the common part of emitter.rs 254-268 and 703-718: lead identifier with arguments -/
def genericType {α : Type} (lead : M SrState TR) (visitArg : α → M SrState TR) (args : List α) :
    M SrState Unit :=
  lead.andThen <|
    (identToType dbg).andThen <|
      match args with
      | [] => M.pure ()
      | _ :: _ =>
        (popType dbg).bind fun main =>
          (collectArgs dbg visitArg args main).bind fun t => SrState.pushObj (.typeDef t)

/-- `for field in &node.address_fields { field.visit(self)?;
let field = self.pop_variable_declaration()?; fields.push(field); }`, emitter.rs 338-342;
also the closure of lines 642-645 and the loop of 485-489 up to the use made of the field -/
def collectVars {α : Type} (visitField : α → M SrState TR) : List α → M SrState (List Field)
  | [] => M.pure []
  | f :: fs =>
    (visitField f).andThen <|
      (popVar dbg).bind fun x =>
        (collectVars visitField fs).bind fun xs => M.pure (x :: xs)

/-- `for param in node.parameters.iter() { param.visit(self)?; let init_param =
self.pop_variable_declaration()?; self.contract.init_params.push(init_param); }`,
emitter.rs 485-489 -/
def collectInitParams {α : Type} (visitParam : α → M SrState TR) : List α → M SrState Unit
  | [] => M.pure ()
  | p :: ps =>
    (visitParam p).andThen <|
      (popVar dbg).bind fun x =>
        M.andThen
          (fun s => ({ s with contract :=
              { s.contract with initParams := s.contract.initParams ++ [x] } }, .ok ()))
          (collectInitParams visitParam ps)

/-- All `emit_*` callbacks of `SrEmitter`, emitter.rs 82-724; `V` is the visitor used for
`x.visit(self)`. -/
def emitSr (V : Emitter SrState) (mode : Mode) (n : AnyNode) : M SrState TR :=
  match n with
  -- emit_byte_str, 87-93
  | .byteStr _ => M.cont
  -- emit_type_name_identifier, 94-116
  | .typeNameId n =>
    match mode with
    | .enter =>
      match n with
      | .byteStringType b => (SrState.pushObj (.ident b.display .unknown)).andThen M.cont
      | .eventType => M.cont
      | .typeOrEnumLikeIdentifier s => (SrState.pushObj (.ident s.node .unknown)).andThen M.cont
    | .exit => M.cont
  -- emit_imported_name, 117-123; emit_import_declarations, 124-130
  | .importedName _ => M.panic
  | .importDecls _ => M.panic
  -- emit_meta_identifier, 131-144
  | .metaId n =>
    match n with
    | .byteString => (SrState.pushObj (.ident (str! "ByStr") .unknown)).andThen M.skip
    | _ => M.cont
  -- emit_variable_identifier, 145-151
  | .varId _ => M.skip
  -- emit_builtin_arguments, 152-158
  | .builtinArgs _ => M.panic
  -- emit_type_map_key, 159-174 (any mode)
  | .mapKey n =>
    (match n with
      | .genericMapKey k => visitMetaIdW V k
      | .enclosedGenericId k => visitMetaIdW V k
      | .enclosedAddressMapKeyType k => visitAddrTypeW V k
      | .addressMapKeyType k => visitAddrTypeW V k).andThen <|
    (identToType dbg).andThen M.skip
  -- emit_type_map_value, 175-211
  | .mapValue n =>
    match mode with
    | .enter =>
      match n with
      | .mapValueTypeOrEnumLikeIdentifier v =>
        (visitMetaIdW V v).andThen <| (identToType dbg).andThen M.skip
      | .mapKeyValue v => (visitMapEntryW V v).andThen <| (makeMap dbg).andThen M.skip
      | .mapValueParenthesizedType v => (visitMapValueAllowingW V v).andThen M.skip
      | .mapValueAddressType v => (visitAddrTypeW V v).andThen M.skip
    | .exit => M.skip
  -- emit_type_argument, 212-247 (any mode)
  | .typeArg n =>
    match n with
    | .enclosedTypeArgument t => (visitScillaTypeW V t).andThen M.skip
    | .genericTypeArgument m => (visitMetaIdW V m).andThen <| (identToType dbg).andThen M.skip
    | .templateTypeArgument _ => M.panic
    | .addressTypeArgument a => (visitAddrTypeW V a).andThen M.skip
    | .mapTypeArgument k v =>
      (visitMapKeyW V k).andThen <| (visitMapValueW V v).andThen <| (makeMap dbg).andThen M.skip
  -- emit_scilla_type, 248-299 (any mode)
  | .scillaType n =>
    match n with
    | .genericTypeWithArgs lead args =>
      (genericType dbg (visitMetaIdW V lead) (visitTypeArgW V) args).andThen M.skip
    | .mapType k v =>
      (visitMapKeyW V k).andThen <| (visitMapValueW V v).andThen <| (makeMap dbg).andThen M.skip
    | .functionType _ _ => M.panic
    | .polyFunctionType _ _ => M.panic
    | .enclosedType a => (visitScillaTypeW V a).andThen M.skip
    | .scillaAddresseType a => (visitAddrTypeW V a).andThen M.skip
    | .typeVarType _ => M.panic
  -- emit_type_map_entry, 301-307
  | .mapEntry _ => M.cont
  -- emit_address_type_field, 308-325
  | .addrField (.mk i t) =>
    match mode with
    | .enter =>
      match i.node with
      | .variableName x =>
        (visitScillaTypeW V t).andThen <|
          (popType dbg).bind fun ty =>
            (intoType ty).bind fun ty =>
              (SrState.pushObj (.varDecl (.mk x.node ty))).andThen M.skip
      | _ => M.skip
    | .exit => M.skip
  -- emit_address_type, 326-353
  | .addrType (.mk i tn fs) =>
    match mode with
    | .enter =>
      (visitTypeNameIdW V i).andThen <|
        (identToType dbg).andThen <|
          (popType dbg).bind fun main =>
            (collectVars dbg (visitAddrFieldW V) fs).bind fun fields =>
              (SrState.pushObj (.typeDef (main.setAddress (tn.node, fields)))).andThen M.skip
    | .exit => M.skip
  -- emit_full_expression, 355-361
  | .fullExpr _ => M.skip
  -- emit_message_entry, 363-369; emit_pattern_match_expression_clause, 370-376;
  -- emit_atomic_expression, 377-383; emit_contract_type_arguments, 384-390
  | .messageEntry _ => M.panic
  | .pmExprClause _ => M.panic
  | .atomic _ => M.panic
  | .contractTypeArgs _ => M.panic
  -- emit_value_literal, 391-397
  | .valueLit _ => M.skip
  -- emit_map_access, 398-404
  | .mapAccess _ => M.panic
  -- emit_pattern, 405-411
  | .pattern _ => M.skip
  -- emit_argument_pattern, 412-418; emit_pattern_match_clause, 419-425;
  -- emit_blockchain_fetch_arguments, 426-432
  | .argPattern _ => M.panic
  | .pmClause _ => M.panic
  | .bcFetchArgs _ => M.panic
  -- emit_statement, 434-440
  | .statement _ => M.skip
  -- emit_remote_fetch_statement, 442-448
  | .remoteFetch _ => M.panic
  -- emit_component_id, 449-476 (any mode)
  | .componentId n =>
    match n with
    | .withRegularId x => (SrState.pushObj (.ident x.node .componentName)).andThen M.skip
    | .withTypeLikeName x => (SrState.pushObj (.ident x.node.display .componentName)).andThen M.skip
  -- emit_component_parameters, 478-494
  | .compParams n =>
    match mode with
    | .enter => (collectInitParams dbg (visitParamPairW V) n.parameters).andThen M.cont
    | .exit => M.cont
  -- emit_parameter_pair, 496-503
  | .paramPair _ => M.cont
  -- emit_component_body, 505-511
  | .compBody _ => M.skip
  -- emit_statement_block, 513-519
  | .stmtBlock _ => M.cont
  -- emit_typed_identifier, 520-534 (any mode)
  | .typedId n =>
    (visitTypeAnnW V n.annotation).andThen <|
      (popType dbg).bind fun ty =>
        (intoType ty).bind fun ty =>
          (SrState.pushObj (.varDecl (.mk n.identifierName.node ty))).andThen M.skip
  -- emit_type_annotation, 535-542; emit_program, 544-550
  | .typeAnn _ => M.cont
  | .program _ => M.cont
  -- emit_library_definition, 552-558; emit_library_single_definition, 560-566
  | .libraryDef _ => M.panic
  | .librarySingle _ => M.panic
  -- emit_contract_definition, 568-591 (any mode)
  | .contractDef n =>
    (visitTypeNameIdW V n.contractName).andThen <|
      M.andThen
        (fun s => ({ s with contract :=
            { s.contract with name := n.contractName.node.display } }, .ok ())) <|
      (visitCompParamsW V n.parameters).andThen <|
      (visitOpt (visitWithConstraintW V) n.constraint).andThen <|
      (visitList (visitContractFieldW V) n.fields).andThen <|
      (visitList (visitCompDefW V) n.components).andThen M.skip
  -- emit_contract_field, 593-606 (any mode)
  | .contractField n =>
    (visitTypedIdW V n.typedIdentifier).andThen <|
      (popVar dbg).bind fun f =>
        (visitFullExprW V n.rightHandSide).andThen <|
          M.andThen
            (fun s => ({ s with contract :=
                { s.contract with fields := s.contract.fields ++ [f] } }, .ok ()))
            M.skip
  -- emit_with_constraint, 607-613; emit_component_definition, 614-620
  | .withConstraint _ => M.cont
  | .compDef _ => M.cont
  -- emit_procedure_definition, 621-627
  | .procDef _ => M.skip
  -- emit_transition_definition, 629-659 (any mode)
  | .transDef n =>
    (visitComponentIdW V n.name).andThen <|
      (collectVars dbg (visitParamPairW V) n.parameters.node.parameters).bind fun params =>
        (popIdent dbg).bind fun (name, kind) =>
          if kind = .componentName then
            M.andThen
              (fun s => ({ s with contract :=
                  { s.contract with transitions := s.contract.transitions ++ [⟨name, params⟩] } },
                .ok ()))
              M.skip
          else M.panic
  -- emit_type_alternative_clause, 661-667
  | .typeAlt _ => M.skip
  -- emit_type_map_value_arguments, 668-691
  | .mapValueArgs n =>
    match mode with
    | .enter =>
      match n with
      | .enclosedTypeMapValue v => (visitMapValueAllowingW V v).andThen M.skip
      | .genericMapValueArgument g => (visitMetaIdW V g).andThen <| (identToType dbg).andThen M.skip
      | .mapKeyValueType _ _ => M.panic
    | .exit => M.skip
  -- emit_type_map_value_allowing_type_arguments, 692-723
  | .mapValueAllowing n =>
    match mode with
    | .enter =>
      match n with
      | .typeMapValueNoArgs v => (visitMapValueW V v).andThen M.skip
      | .typeMapValueWithArgs m args =>
        (genericType dbg (visitMetaIdW V m) (visitMapValueArgsW V) args).andThen M.skip
    | .exit => M.skip

/-- `impl AstConverting for SrEmitter`, emitter.rs 82-724, with fuel for `x.visit(self)`.
`push_source_position` and `pop_source_position` do nothing (lines 83-85). -/
def srEmitter : Nat → Emitter SrState
  | 0 => { push := fun _ _ s => s, pop := id, emit := fun _ _ => M.panic }
  | k + 1 => { push := fun _ _ s => s, pop := id, emit := emitSr dbg (srEmitter k) }

end

/-! ### Fuel -/

mutual
/-- Bounds on the nesting of `visit(self)` calls below a type node (not in the code; only used to
choose the fuel, see the header). -/
def dKey : NodeTypeMapKey → Nat
  | .genericMapKey _ => 2
  | .enclosedGenericId _ => 2
  | .enclosedAddressMapKeyType a => dAddrW a + 1
  | .addressMapKeyType a => dAddrW a + 1
/-- a bound on nested visits, as above (not in the code) -/
def dValue : NodeTypeMapValue → Nat
  | .mapValueTypeOrEnumLikeIdentifier _ => 2
  | .mapKeyValue e => dEntryW e + 1
  | .mapValueParenthesizedType t => dMvW t + 1
  | .mapValueAddressType a => dAddrW a + 1
/-- a bound on nested visits, as above (not in the code) -/
def dArg : NodeTypeArgument → Nat
  | .enclosedTypeArgument t => dTypeW t + 1
  | .genericTypeArgument _ => 2
  | .templateTypeArgument _ => 1
  | .addressTypeArgument a => dAddrW a + 1
  | .mapTypeArgument k v => max (dKeyW k) (dValueW v) + 1
/-- a bound on nested visits, as above (not in the code) -/
def dType : NodeScillaType → Nat
  | .genericTypeWithArgs _ args => dArgs args + 2
  | .mapType k v => max (dKeyW k) (dValueW v) + 1
  | .functionType _ _ => 1
  | .enclosedType t => dTypeW t + 1
  | .scillaAddresseType a => dAddrW a + 1
  | .polyFunctionType _ _ => 1
  | .typeVarType _ => 1
/-- a bound on nested visits, as above (not in the code) -/
def dEntry : NodeTypeMapEntry → Nat
  | .mk k v => max (dKeyW k) (dValueW v) + 1
/-- a bound on nested visits, as above (not in the code) -/
def dField : NodeAddressTypeField → Nat
  | .mk _ t => dTypeW t + 1
/-- a bound on nested visits, as above (not in the code) -/
def dAddr : NodeAddressType → Nat
  | .mk _ _ fs => dFields fs + 2
/-- a bound on nested visits, as above (not in the code) -/
def dMva : NodeTypeMapValueArguments → Nat
  | .enclosedTypeMapValue t => dMvW t + 1
  | .genericMapValueArgument _ => 2
  | .mapKeyValueType _ _ => 1
/-- a bound on nested visits, as above (not in the code) -/
def dMv : NodeTypeMapValueAllowingTypeArguments → Nat
  | .typeMapValueNoArgs v => dValueW v + 1
  | .typeMapValueWithArgs _ args => dMvas args + 2
/-- a bound on nested visits, as above (not in the code) -/
def dKeyW : W NodeTypeMapKey → Nat
  | ⟨n, _, _⟩ => dKey n
/-- a bound on nested visits, as above (not in the code) -/
def dValueW : W NodeTypeMapValue → Nat
  | ⟨n, _, _⟩ => dValue n
/-- a bound on nested visits, as above (not in the code) -/
def dArgW : W NodeTypeArgument → Nat
  | ⟨n, _, _⟩ => dArg n
/-- a bound on nested visits, as above (not in the code) -/
def dTypeW : W NodeScillaType → Nat
  | ⟨n, _, _⟩ => dType n
/-- a bound on nested visits, as above (not in the code) -/
def dEntryW : W NodeTypeMapEntry → Nat
  | ⟨n, _, _⟩ => dEntry n
/-- a bound on nested visits, as above (not in the code) -/
def dFieldW : W NodeAddressTypeField → Nat
  | ⟨n, _, _⟩ => dField n
/-- a bound on nested visits, as above (not in the code) -/
def dAddrW : W NodeAddressType → Nat
  | ⟨n, _, _⟩ => dAddr n
/-- a bound on nested visits, as above (not in the code) -/
def dMvaW : W NodeTypeMapValueArguments → Nat
  | ⟨n, _, _⟩ => dMva n
/-- a bound on nested visits, as above (not in the code) -/
def dMvW : W NodeTypeMapValueAllowingTypeArguments → Nat
  | ⟨n, _, _⟩ => dMv n
/-- a bound on nested visits, as above (not in the code) -/
def dArgs : List (W NodeTypeArgument) → Nat
  | [] => 0
  | a :: as => max (dArgW a) (dArgs as)
/-- a bound on nested visits, as above (not in the code) -/
def dFields : List (W NodeAddressTypeField) → Nat
  | [] => 0
  | a :: as => max (dFieldW a) (dFields as)
/-- a bound on nested visits, as above (not in the code) -/
def dMvas : List (W NodeTypeMapValueArguments) → Nat
  | [] => 0
  | a :: as => max (dMvaW a) (dMvas as)
end

/-- a bound on nested visits, as above (not in the code) -/
def dParam (p : W NodeParameterPair) : Nat :=
  dTypeW p.node.identifierWithType.node.annotation.node.typeName

/-- the largest of the bounds of the elements (not in the code) -/
def dMax {α : Type} (f : α → Nat) : List α → Nat
  | [] => 0
  | a :: as => max (f a) (dMax f as)

/-- a bound on nested visits, as above (not in the code) -/
def dParams (ps : List (W NodeParameterPair)) : Nat := dMax dParam ps

/-- a bound on nested visits, as above (not in the code) -/
def dContractField (f : W NodeContractField) : Nat :=
  dTypeW f.node.typedIdentifier.node.annotation.node.typeName

/-- a bound on nested visits, as above (not in the code) -/
def dComponent (c : W NodeComponentDefinition) : Nat :=
  match c.node with
  | .transitionComponent t => dParams t.node.parameters.node.parameters
  | .procedureComponent _ => 0

/-- Fuel that is always enough to emit a contract (not in the code) -/
def emitFuel (c : NodeContractDefinition) : Nat :=
  max (dParams c.parameters.node.parameters) (max (dMax dContractField c.fields)
    (dMax dComponent c.components)) + 8

/-- `SrEmitter::default().emit(&program)`, emitter.rs 76-79: visits the contract definition only. -/
def emitProgram (dbg : StackObj → Str) (p : NodeProgram) : Outcome Contract :=
  match visitContractDefW (srEmitter dbg (emitFuel p.contractDefinition.node))
      p.contractDefinition SrState.init with
  | (s, .ok _) => .ok s.contract
  | (_, .err e) => .err e
  | (_, .panic) => .panic

end Verif
