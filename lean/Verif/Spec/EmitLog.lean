import Verif.Model.Emitter
/-
The emitter with a record of its callbacks.  `emitSrL` is the text of `emitSr` (Model/Emitter.lean) for a state
that contains the state of the emitter (class `Holds`); instantiated with the emitter's own state it is `emitSr`
(`emitterL_plain`, Proofs/EmitCount.lean), so nothing is modelled anew here.  Instantiated with a pair of a state
and a list it records every call of a callback, including those of the visits the emitter starts itself.
-/
namespace Verif

/-- a state that contains a state of the emitter -/
class Holds (σ : Type) where
  get : σ → SrState
  put : SrState → σ → σ

instance plainHolds : Holds SrState := ⟨fun s => s, fun s _ => s⟩

instance pairHolds (τ : Type) : Holds (SrState × τ) := ⟨fun s => s.1, fun s p => (s, p.2)⟩

section
variable {σ : Type} [Holds σ]

/-- a step of the emitter on its own part of the state -/
def onSr {α : Type} (m : M SrState α) : M σ α := fun s =>
  (Holds.put (m (Holds.get s)).1 s, (m (Holds.get s)).2)

variable (dbg : StackObj → Str)

/-- `for arg in args { arg.visit(self)?; let sub_type = self.pop_type_definition()?;
main_type.push_sub_type(sub_type); }` (emitter.rs 261-265, 710-714); returns the extended type -/
def collectArgsL {α : Type} (visitArg : α → M σ TR) : List α → SrType → M σ SrType
  | [], main => M.pure main
  | a :: as, main =>
    (visitArg a).andThen <|
      (onSr (popType dbg)).bind fun t => collectArgsL visitArg as (main.pushSubType t)

/-- the common part of emitter.rs 254-268 and 703-718: lead identifier with arguments -/
def genericTypeL {α : Type} (lead : M σ TR) (visitArg : α → M σ TR) (args : List α) :
    M σ Unit :=
  lead.andThen <|
    (onSr (identToType dbg)).andThen <|
      match args with
      | [] => M.pure ()
      | _ :: _ =>
        (onSr (popType dbg)).bind fun main =>
          (collectArgsL dbg visitArg args main).bind fun t => onSr (SrState.pushObj (.typeDef t))

/-- `for field in &node.address_fields { field.visit(self)?;
let field = self.pop_variable_declaration()?; fields.push(field); }`, emitter.rs 338-342;
also the closure of lines 642-645 and the loop of 485-489 up to the use made of the field -/
def collectVarsL {α : Type} (visitField : α → M σ TR) : List α → M σ (List Field)
  | [] => M.pure []
  | f :: fs =>
    (visitField f).andThen <|
      (onSr (popVar dbg)).bind fun x =>
        (collectVarsL visitField fs).bind fun xs => M.pure (x :: xs)

/-- `for param in node.parameters.iter() { param.visit(self)?; let init_param =
self.pop_variable_declaration()?; self.contract.init_params.push(init_param); }`,
emitter.rs 485-489 -/
def collectInitParamsL {α : Type} (visitParam : α → M σ TR) : List α → M σ Unit
  | [] => M.pure ()
  | p :: ps =>
    (visitParam p).andThen <|
      (onSr (popVar dbg)).bind fun x =>
        M.andThen
          (onSr (fun s => ({ s with contract :=
              { s.contract with initParams := s.contract.initParams ++ [x] } }, .ok ())))
          (collectInitParamsL visitParam ps)

/-- `emitSr` (Model/Emitter.lean; all `emit_*` callbacks of `SrEmitter`, emitter.rs 82-724); `V` is the visitor used for
`x.visit(self)`. -/
def emitSrL (V : Emitter σ) (mode : Mode) (n : AnyNode) : M σ TR :=
  match n with
  -- emit_byte_str, 87-93
  | .byteStr _ => M.cont
  -- emit_type_name_identifier, 94-116
  | .typeNameId n =>
    match mode with
    | .enter =>
      match n with
      | .byteStringType b => (onSr (SrState.pushObj (.ident b.display .unknown))).andThen M.cont
      | .eventType => M.cont
      | .typeOrEnumLikeIdentifier s => (onSr (SrState.pushObj (.ident s.node .unknown))).andThen M.cont
    | .exit => M.cont
  -- emit_imported_name, 117-123; emit_import_declarations, 124-130
  | .importedName _ => M.panic
  | .importDecls _ => M.panic
  -- emit_meta_identifier, 131-144
  | .metaId n =>
    match n with
    | .byteString => (onSr (SrState.pushObj (.ident (str! "ByStr") .unknown))).andThen M.skip
    | _ => M.cont
  -- emit_variable_identifier, 145-151
  | .varId _ => M.skip
  -- emit_builtin_arguments, 152-158
  | .builtinArgs _ => M.panic
  -- emit_type_map_key, 159-174 (any mode)
  | .mapKey n =>
    (match n with
      | .genericMapKey k => visitMetaIdW V k
      | .enclosedGenericId k => visitMetaIdW V k
      | .enclosedAddressMapKeyType k => visitAddrTypeW V k
      | .addressMapKeyType k => visitAddrTypeW V k).andThen <|
    (onSr (identToType dbg)).andThen M.skip
  -- emit_type_map_value, 175-211
  | .mapValue n =>
    match mode with
    | .enter =>
      match n with
      | .mapValueTypeOrEnumLikeIdentifier v =>
        (visitMetaIdW V v).andThen <| (onSr (identToType dbg)).andThen M.skip
      | .mapKeyValue v => (visitMapEntryW V v).andThen <| (onSr (makeMap dbg)).andThen M.skip
      | .mapValueParenthesizedType v => (visitMapValueAllowingW V v).andThen M.skip
      | .mapValueAddressType v => (visitAddrTypeW V v).andThen M.skip
    | .exit => M.skip
  -- emit_type_argument, 212-247 (any mode)
  | .typeArg n =>
    match n with
    | .enclosedTypeArgument t => (visitScillaTypeW V t).andThen M.skip
    | .genericTypeArgument m => (visitMetaIdW V m).andThen <| (onSr (identToType dbg)).andThen M.skip
    | .templateTypeArgument _ => M.panic
    | .addressTypeArgument a => (visitAddrTypeW V a).andThen M.skip
    | .mapTypeArgument k v =>
      (visitMapKeyW V k).andThen <| (visitMapValueW V v).andThen <| (onSr (makeMap dbg)).andThen M.skip
  -- emit_scilla_type, 248-299 (any mode)
  | .scillaType n =>
    match n with
    | .genericTypeWithArgs lead args =>
      (genericTypeL dbg (visitMetaIdW V lead) (visitTypeArgW V) args).andThen M.skip
    | .mapType k v =>
      (visitMapKeyW V k).andThen <| (visitMapValueW V v).andThen <| (onSr (makeMap dbg)).andThen M.skip
    | .functionType _ _ => M.panic
    | .polyFunctionType _ _ => M.panic
    | .enclosedType a => (visitScillaTypeW V a).andThen M.skip
    | .scillaAddresseType a => (visitAddrTypeW V a).andThen M.skip
    | .typeVarType _ => M.panic
  -- emit_type_map_entry, 301-307
  | .mapEntry _ => M.cont
  -- emit_address_type_field, 308-325
  | .addrField (.mk i t) =>
    match mode with
    | .enter =>
      match i.node with
      | .variableName x =>
        (visitScillaTypeW V t).andThen <|
          (onSr (popType dbg)).bind fun ty =>
            (onSr (intoType ty)).bind fun ty =>
              (onSr (SrState.pushObj (.varDecl (.mk x.node ty)))).andThen M.skip
      | _ => M.skip
    | .exit => M.skip
  -- emit_address_type, 326-353
  | .addrType (.mk i tn fs) =>
    match mode with
    | .enter =>
      (visitTypeNameIdW V i).andThen <|
        (onSr (identToType dbg)).andThen <|
          (onSr (popType dbg)).bind fun main =>
            (collectVarsL dbg (visitAddrFieldW V) fs).bind fun fields =>
              (onSr (SrState.pushObj (.typeDef (main.setAddress (tn.node, fields))))).andThen M.skip
    | .exit => M.skip
  -- emit_full_expression, 355-361
  | .fullExpr _ => M.skip
  -- emit_message_entry, 363-369; emit_pattern_match_expression_clause, 370-376;
  -- emit_atomic_expression, 377-383; emit_contract_type_arguments, 384-390
  | .messageEntry _ => M.panic
  | .pmExprClause _ => M.panic
  | .atomic _ => M.panic
  | .contractTypeArgs _ => M.panic
  -- emit_value_literal, 391-397
  | .valueLit _ => M.skip
  -- emit_map_access, 398-404
  | .mapAccess _ => M.panic
  -- emit_pattern, 405-411
  | .pattern _ => M.skip
  -- emit_argument_pattern, 412-418; emit_pattern_match_clause, 419-425;
  -- emit_blockchain_fetch_arguments, 426-432
  | .argPattern _ => M.panic
  | .pmClause _ => M.panic
  | .bcFetchArgs _ => M.panic
  -- emit_statement, 434-440
  | .statement _ => M.skip
  -- emit_remote_fetch_statement, 442-448
  | .remoteFetch _ => M.panic
  -- emit_component_id, 449-476 (any mode)
  | .componentId n =>
    match n with
    | .withRegularId x => (onSr (SrState.pushObj (.ident x.node .componentName))).andThen M.skip
    | .withTypeLikeName x => (onSr (SrState.pushObj (.ident x.node.display .componentName))).andThen M.skip
  -- emit_component_parameters, 478-494
  | .compParams n =>
    match mode with
    | .enter => (collectInitParamsL dbg (visitParamPairW V) n.parameters).andThen M.cont
    | .exit => M.cont
  -- emit_parameter_pair, 496-503
  | .paramPair _ => M.cont
  -- emit_component_body, 505-511
  | .compBody _ => M.skip
  -- emit_statement_block, 513-519
  | .stmtBlock _ => M.cont
  -- emit_typed_identifier, 520-534 (any mode)
  | .typedId n =>
    (visitTypeAnnW V n.annotation).andThen <|
      (onSr (popType dbg)).bind fun ty =>
        (onSr (intoType ty)).bind fun ty =>
          (onSr (SrState.pushObj (.varDecl (.mk n.identifierName.node ty)))).andThen M.skip
  -- emit_type_annotation, 535-542; emit_program, 544-550
  | .typeAnn _ => M.cont
  | .program _ => M.cont
  -- emit_library_definition, 552-558; emit_library_single_definition, 560-566
  | .libraryDef _ => M.panic
  | .librarySingle _ => M.panic
  -- emit_contract_definition, 568-591 (any mode)
  | .contractDef n =>
    (visitTypeNameIdW V n.contractName).andThen <|
      M.andThen
        (onSr (fun s => ({ s with contract :=
            { s.contract with name := n.contractName.node.display } }, .ok ()))) <|
      (visitCompParamsW V n.parameters).andThen <|
      (visitOpt (visitWithConstraintW V) n.constraint).andThen <|
      (visitList (visitContractFieldW V) n.fields).andThen <|
      (visitList (visitCompDefW V) n.components).andThen M.skip
  -- emit_contract_field, 593-606 (any mode)
  | .contractField n =>
    (visitTypedIdW V n.typedIdentifier).andThen <|
      (onSr (popVar dbg)).bind fun f =>
        (visitFullExprW V n.rightHandSide).andThen <|
          M.andThen
            (onSr (fun s => ({ s with contract :=
                { s.contract with fields := s.contract.fields ++ [f] } }, .ok ())))
            M.skip
  -- emit_with_constraint, 607-613; emit_component_definition, 614-620
  | .withConstraint _ => M.cont
  | .compDef _ => M.cont
  -- emit_procedure_definition, 621-627
  | .procDef _ => M.skip
  -- emit_transition_definition, 629-659 (any mode)
  | .transDef n =>
    (visitComponentIdW V n.name).andThen <|
      (collectVarsL dbg (visitParamPairW V) n.parameters.node.parameters).bind fun params =>
        (onSr (popIdent dbg)).bind fun (name, kind) =>
          if kind = .componentName then
            M.andThen
              (onSr (fun s => ({ s with contract :=
                  { s.contract with transitions := s.contract.transitions ++ [⟨name, params⟩] } },
                .ok ())))
              M.skip
          else M.panic
  -- emit_type_alternative_clause, 661-667
  | .typeAlt _ => M.skip
  -- emit_type_map_value_arguments, 668-691
  | .mapValueArgs n =>
    match mode with
    | .enter =>
      match n with
      | .enclosedTypeMapValue v => (visitMapValueAllowingW V v).andThen M.skip
      | .genericMapValueArgument g => (visitMetaIdW V g).andThen <| (onSr (identToType dbg)).andThen M.skip
      | .mapKeyValueType _ _ => M.panic
    | .exit => M.skip
  -- emit_type_map_value_allowing_type_arguments, 692-723
  | .mapValueAllowing n =>
    match mode with
    | .enter =>
      match n with
      | .typeMapValueNoArgs v => (visitMapValueW V v).andThen M.skip
      | .typeMapValueWithArgs m args =>
        (genericTypeL dbg (visitMetaIdW V m) (visitMapValueArgsW V) args).andThen M.skip
    | .exit => M.skip

/-- `srEmitter` (Model/Emitter.lean), where `note` is applied to the state at every call of a callback -/
def emitterL (note : Mode → AnyNode → σ → σ) : Nat → Emitter σ
  | 0 => { push := fun _ _ s => s, pop := id, emit := fun _ _ => M.panic }
  | k + 1 =>
    { push := fun _ _ s => s, pop := id,
      emit := fun mode n s => emitSrL dbg (emitterL note k) mode n (note mode n s) }

end

/-- The emitter that records the calls of its callbacks, in order. -/
def recordingEmitter (dbg : StackObj → Str) (k : Nat) : Emitter (SrState × List (Mode × AnyNode)) :=
  emitterL dbg (fun mode n s => (s.1, s.2 ++ [(mode, n)])) k

/-- `SrEmitter::default().emit(&program)` with a record of the callbacks. -/
def emitRecorded (dbg : StackObj → Str) (p : NodeProgram) : Outcome Contract × List (Mode × AnyNode) :=
  match visitContractDefW (recordingEmitter dbg (emitFuel p.contractDefinition.node))
      p.contractDefinition (SrState.init, []) with
  | ((s, l), .ok _) => (.ok s.contract, l)
  | ((_, l), .err e) => (.err e, l)
  | ((_, l), .panic) => (.panic, l)

end Verif
