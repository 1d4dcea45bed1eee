import Verif.Spec.RustValue
/-
The actions of src/parser/parser.lalrpop as data, written by tools/actions_lean.py, which reads the file.  The list is
parallel to `grammarFile`.  Fields of structures are listed in the order of src/ast/nodes.rs; `Box::new(e)`,
`String::from(e)`, `e.clone()`, `e.into()`, `e.to_vec()` and `e.to_string()` are written `e`.
-/
namespace Verif

/-- parser.lalrpop 91-1832: the actions, in the order of the file -/
def fileActions : List FAct :=
  [-- 92
   ⟨[some (str! "node")], [(0, true, str! "start"), (1, false, str! "end")],
    (.node (str! "NodeByteStr::Type") [] [(.node (str! "WithMetaData") [str! "node", str! "start", str! "end"] [(.var (str! "node")), (.var (str! "start")), (.var (str! "end"))])])⟩,
   -- 113
   ⟨[some (str! "node")], [(0, true, str! "start"), (1, false, str! "end")],
    (.node (str! "WithMetaData") [str! "node", str! "start", str! "end"] [(.node (str! "NodeTypeNameIdentifier::ByteStringType") [] [(.var (str! "node"))]), (.var (str! "start")), (.var (str! "end"))])⟩,
   -- 118
   ⟨[none], [(0, true, str! "start"), (1, false, str! "end")],
    (.node (str! "WithMetaData") [str! "node", str! "start", str! "end"] [(.node (str! "NodeTypeNameIdentifier::EventType") [] []), (.var (str! "start")), (.var (str! "end"))])⟩,
   -- 123
   ⟨[some (str! "node")], [(0, true, str! "start"), (1, false, str! "end")],
    (.node (str! "WithMetaData") [str! "node", str! "start", str! "end"] [(.node (str! "NodeTypeNameIdentifier::TypeOrEnumLikeIdentifier") [] [(.var (str! "node"))]), (.var (str! "start")), (.var (str! "end"))])⟩,
   -- 143
   ⟨[some (str! "node")], [(0, true, str! "start"), (1, false, str! "end")],
    (.node (str! "WithMetaData") [str! "node", str! "start", str! "end"] [(.node (str! "NodeImportedName::RegularImport") [] [(.var (str! "node"))]), (.var (str! "start")), (.var (str! "end"))])⟩,
   -- 148
   ⟨[some (str! "n"), none, some (str! "v")], [(0, true, str! "start"), (3, false, str! "end")],
    (.node (str! "WithMetaData") [str! "node", str! "start", str! "end"] [(.node (str! "NodeImportedName::AliasedImport") [] [(.var (str! "n")), (.var (str! "v"))]), (.var (str! "start")), (.var (str! "end"))])⟩,
   -- 170
   ⟨[some (str! "prev"), none, some (str! "n")], [(1, true, str! "start"), (3, false, str! "end")],
    (.node (str! "WithMetaData") [str! "node", str! "start", str! "end"] [(.block [.let_ (str! "ret") (.node (str! "NodeImportDeclarations") [str! "import_list"] [(.field (.field (.var (str! "prev")) (str! "node")) (str! "import_list"))]), .push (str! "ret") [str! "import_list"] (.var (str! "n"))] (.var (str! "ret"))), (.var (str! "start")), (.var (str! "end"))])⟩,
   -- 183
   ⟨[none, some (str! "n")], [(0, true, str! "start"), (2, false, str! "end")],
    (.node (str! "WithMetaData") [str! "node", str! "start", str! "end"] [(.node (str! "NodeImportDeclarations") [str! "import_list"] [(.var (str! "n"))]), (.var (str! "start")), (.var (str! "end"))])⟩,
   -- 210
   ⟨[some (str! "node")], [(0, true, str! "start"), (1, false, str! "end")],
    (.node (str! "WithMetaData") [str! "node", str! "start", str! "end"] [(.node (str! "NodeMetaIdentifier::MetaName") [] [(.var (str! "node"))]), (.var (str! "start")), (.var (str! "end"))])⟩,
   -- 215
   ⟨[some (str! "l"), none, some (str! "r")], [(0, true, str! "start"), (3, false, str! "end")],
    (.node (str! "WithMetaData") [str! "node", str! "start", str! "end"] [(.node (str! "NodeMetaIdentifier::MetaNameInNamespace") [] [(.var (str! "l")), (.var (str! "r"))]), (.var (str! "start")), (.var (str! "end"))])⟩,
   -- 220
   ⟨[some (str! "l"), none, some (str! "r")], [(0, true, str! "start"), (3, false, str! "end")],
    (.node (str! "WithMetaData") [str! "node", str! "start", str! "end"] [(.node (str! "NodeMetaIdentifier::MetaNameInHexspace") [] [(.var (str! "l")), (.var (str! "r"))]), (.var (str! "start")), (.var (str! "end"))])⟩,
   -- 225
   ⟨[none], [(0, true, str! "start"), (1, false, str! "end")],
    (.node (str! "WithMetaData") [str! "node", str! "start", str! "end"] [(.node (str! "NodeMetaIdentifier::ByteString") [] []), (.var (str! "start")), (.var (str! "end"))])⟩,
   -- 250
   ⟨[some (str! "node")], [(0, true, str! "start"), (1, false, str! "end")],
    (.node (str! "WithMetaData") [str! "node", str! "start", str! "end"] [(.node (str! "NodeVariableIdentifier::VariableName") [] [(.var (str! "node"))]), (.var (str! "start")), (.var (str! "end"))])⟩,
   -- 255
   ⟨[some (str! "node")], [(0, true, str! "start"), (1, false, str! "end")],
    (.node (str! "WithMetaData") [str! "node", str! "start", str! "end"] [(.node (str! "NodeVariableIdentifier::SpecialIdentifier") [] [(.var (str! "node"))]), (.var (str! "start")), (.var (str! "end"))])⟩,
   -- 261
   ⟨[some (str! "n"), none, some (str! "r")], [(0, true, str! "start"), (3, false, str! "end")],
    (.node (str! "WithMetaData") [str! "node", str! "start", str! "end"] [(.node (str! "NodeVariableIdentifier::VariableInNamespace") [] [(.var (str! "n")), (.var (str! "r"))]), (.var (str! "start")), (.var (str! "end"))])⟩,
   -- 281
   ⟨[some (str! "prev"), some (str! "n")], [(0, true, str! "start"), (2, false, str! "end")],
    (.node (str! "WithMetaData") [str! "node", str! "start", str! "end"] [(.block [.let_ (str! "ret") (.node (str! "NodeBuiltinArguments") [str! "arguments"] [(.field (.field (.var (str! "prev")) (str! "node")) (str! "arguments"))]), .push (str! "ret") [str! "arguments"] (.var (str! "n"))] (.var (str! "ret"))), (.var (str! "start")), (.var (str! "end"))])⟩,
   -- 294
   ⟨[some (str! "n")], [(0, true, str! "start"), (1, false, str! "end")],
    (.node (str! "WithMetaData") [str! "node", str! "start", str! "end"] [(.node (str! "NodeBuiltinArguments") [str! "arguments"] [(.vec [(.var (str! "n"))])]), (.var (str! "start")), (.var (str! "end"))])⟩,
   -- 301
   ⟨[none, none], [(0, true, str! "start"), (2, false, str! "end")],
    (.node (str! "WithMetaData") [str! "node", str! "start", str! "end"] [(.node (str! "NodeBuiltinArguments") [str! "arguments"] [(.vec [])]), (.var (str! "start")), (.var (str! "end"))])⟩,
   -- 312
   ⟨[some (str! "meta_identifier"), some (str! "arguments")], [(0, true, str! "start"), (2, false, str! "end")],
    (.node (str! "WithMetaData") [str! "node", str! "start", str! "end"] [(.node (str! "NodeScillaType::GenericTypeWithArgs") [] [(.var (str! "meta_identifier")), (.var (str! "arguments"))]), (.var (str! "start")), (.var (str! "end"))])⟩,
   -- 317
   ⟨[none, some (str! "key_type"), some (str! "value_type")], [(0, true, str! "start"), (3, false, str! "end")],
    (.node (str! "WithMetaData") [str! "node", str! "start", str! "end"] [(.node (str! "NodeScillaType::MapType") [] [(.var (str! "key_type")), (.var (str! "value_type"))]), (.var (str! "start")), (.var (str! "end"))])⟩,
   -- 322
   ⟨[none, some (str! "type_name"), none], [(0, true, str! "start"), (3, false, str! "end")],
    (.node (str! "WithMetaData") [str! "node", str! "start", str! "end"] [(.node (str! "NodeScillaType::EnclosedType") [] [(.var (str! "type_name"))]), (.var (str! "start")), (.var (str! "end"))])⟩,
   -- 327
   ⟨[some (str! "address_type")], [(0, true, str! "start"), (1, false, str! "end")],
    (.node (str! "WithMetaData") [str! "node", str! "start", str! "end"] [(.node (str! "NodeScillaType::ScillaAddresseType") [] [(.var (str! "address_type"))]), (.var (str! "start")), (.var (str! "end"))])⟩,
   -- 332
   ⟨[none, some (str! "template_variable"), none, some (str! "type_name")], [(0, true, str! "start"), (4, false, str! "end")],
    (.node (str! "WithMetaData") [str! "node", str! "start", str! "end"] [(.node (str! "NodeScillaType::PolyFunctionType") [] [(.var (str! "template_variable")), (.var (str! "type_name"))]), (.var (str! "start")), (.var (str! "end"))])⟩,
   -- 337
   ⟨[some (str! "template_variable")], [(0, true, str! "start"), (1, false, str! "end")],
    (.node (str! "WithMetaData") [str! "node", str! "start", str! "end"] [(.node (str! "NodeScillaType::TypeVarType") [] [(.var (str! "template_variable"))]), (.var (str! "start")), (.var (str! "end"))])⟩,
   -- 345
   ⟨[some (str! "from_type"), none, some (str! "to_type")], [(0, true, str! "start"), (3, false, str! "end")],
    (.node (str! "WithMetaData") [str! "node", str! "start", str! "end"] [(.node (str! "NodeScillaType::FunctionType") [] [(.var (str! "from_type")), (.var (str! "to_type"))]), (.var (str! "start")), (.var (str! "end"))])⟩,
   -- 350
   ⟨[some (str! "from_type"), none, some (str! "to_type")], [(0, true, str! "start"), (3, false, str! "end")],
    (.node (str! "WithMetaData") [str! "node", str! "start", str! "end"] [(.node (str! "NodeScillaType::FunctionType") [] [(.var (str! "from_type")), (.var (str! "to_type"))]), (.var (str! "start")), (.var (str! "end"))])⟩,
   -- 376
   ⟨[some (str! "f")], [],
    (.var (str! "f"))⟩,
   -- 377
   ⟨[some (str! "x")], [],
    (.var (str! "x"))⟩,
   -- 398
   ⟨[none, some (str! "t"), none], [(0, true, str! "start"), (3, false, str! "end")],
    (.node (str! "WithMetaData") [str! "node", str! "start", str! "end"] [(.node (str! "NodeTypeArgument::EnclosedTypeArgument") [] [(.var (str! "t"))]), (.var (str! "start")), (.var (str! "end"))])⟩,
   -- 404
   ⟨[some (str! "i")], [(0, true, str! "start"), (1, false, str! "end")],
    (.node (str! "WithMetaData") [str! "node", str! "start", str! "end"] [(.node (str! "NodeTypeArgument::GenericTypeArgument") [] [(.var (str! "i"))]), (.var (str! "start")), (.var (str! "end"))])⟩,
   -- 410
   ⟨[some (str! "t")], [(0, true, str! "start"), (1, false, str! "end")],
    (.node (str! "WithMetaData") [str! "node", str! "start", str! "end"] [(.node (str! "NodeTypeArgument::TemplateTypeArgument") [] [(.var (str! "t"))]), (.var (str! "start")), (.var (str! "end"))])⟩,
   -- 416
   ⟨[some (str! "a")], [(0, true, str! "start"), (1, false, str! "end")],
    (.node (str! "WithMetaData") [str! "node", str! "start", str! "end"] [(.node (str! "NodeTypeArgument::AddressTypeArgument") [] [(.var (str! "a"))]), (.var (str! "start")), (.var (str! "end"))])⟩,
   -- 422
   ⟨[none, some (str! "k"), some (str! "v")], [(0, true, str! "start"), (3, false, str! "end")],
    (.node (str! "WithMetaData") [str! "node", str! "start", str! "end"] [(.node (str! "NodeTypeArgument::MapTypeArgument") [] [(.var (str! "k")), (.var (str! "v"))]), (.var (str! "start")), (.var (str! "end"))])⟩,
   -- 447
   ⟨[some (str! "type_name"), none, none], [(0, true, str! "start"), (3, false, str! "end")],
    (.node (str! "WithMetaData") [str! "node", str! "start", str! "end"] [(.node (str! "NodeAddressType") [str! "identifier", str! "type_name", str! "address_fields"] [(.var (str! "type_name")), (.node (str! "WithMetaData") [str! "node", str! "start", str! "end"] [(.text (str! "")), (.var (str! "start")), (.var (str! "end"))]), (.vec [])]), (.var (str! "start")), (.var (str! "end"))])⟩,
   -- 460
   ⟨[some (str! "type_name"), none, none, some (str! "address_fields"), none], [(0, true, str! "start"), (5, false, str! "end")],
    (.node (str! "WithMetaData") [str! "node", str! "start", str! "end"] [(.node (str! "NodeAddressType") [str! "identifier", str! "type_name", str! "address_fields"] [(.var (str! "type_name")), (.node (str! "WithMetaData") [str! "node", str! "start", str! "end"] [(.text (str! "contract")), (.var (str! "start")), (.var (str! "end"))]), (.orElse (.var (str! "address_fields")) (.vec []))]), (.var (str! "start")), (.var (str! "end"))])⟩,
   -- 474
   ⟨[some (str! "type_name"), none, none, none], [(0, true, str! "start"), (4, false, str! "end")],
    (.node (str! "WithMetaData") [str! "node", str! "start", str! "end"] [(.node (str! "NodeAddressType") [str! "identifier", str! "type_name", str! "address_fields"] [(.var (str! "type_name")), (.node (str! "WithMetaData") [str! "node", str! "start", str! "end"] [(.text (str! "library")), (.var (str! "start")), (.var (str! "end"))]), (.vec [])]), (.var (str! "start")), (.var (str! "end"))])⟩,
   -- 488
   ⟨[some (str! "type_name"), none, some (str! "special_identifier"), none], [(0, true, str! "start"), (4, false, str! "end")],
    (.node (str! "WithMetaData") [str! "node", str! "start", str! "end"] [(.node (str! "NodeAddressType") [str! "identifier", str! "type_name", str! "address_fields"] [(.var (str! "type_name")), (.var (str! "special_identifier")), (.vec [])]), (.var (str! "start")), (.var (str! "end"))])⟩,
   -- 513
   ⟨[some (str! "first"), some (str! "remaining")], [],
    (.block [.let_ (str! "ret") (.vec [(.var (str! "first"))]), .for_ (str! "x") (.var (str! "remaining")) (.push (str! "ret") [] (.var (str! "x")))] (.var (str! "ret")))⟩,
   -- 524
   ⟨[none, some (str! "a")], [],
    (.var (str! "a"))⟩,
   -- 528
   ⟨[none, some (str! "identier_value"), none, some (str! "type_name")], [(0, true, str! "start"), (4, false, str! "end")],
    (.node (str! "WithMetaData") [str! "node", str! "start", str! "end"] [(.node (str! "NodeAddressTypeField") [str! "identifier", str! "type_name"] [(.var (str! "identier_value")), (.var (str! "type_name"))]), (.var (str! "start")), (.var (str! "end"))])⟩,
   -- 557
   ⟨[some (str! "identifier_name")], [(0, true, str! "start"), (1, false, str! "end")],
    (.node (str! "WithMetaData") [str! "node", str! "start", str! "end"] [(.node (str! "NodeTypeMapKey::GenericMapKey") [] [(.var (str! "identifier_name"))]), (.var (str! "start")), (.var (str! "end"))])⟩,
   -- 563
   ⟨[none, some (str! "identifier_name"), none], [(0, true, str! "start"), (3, false, str! "end")],
    (.node (str! "WithMetaData") [str! "node", str! "start", str! "end"] [(.node (str! "NodeTypeMapKey::EnclosedGenericId") [] [(.var (str! "identifier_name"))]), (.var (str! "start")), (.var (str! "end"))])⟩,
   -- 569
   ⟨[none, some (str! "identifier_name"), none], [(0, true, str! "start"), (3, false, str! "end")],
    (.node (str! "WithMetaData") [str! "node", str! "start", str! "end"] [(.node (str! "NodeTypeMapKey::EnclosedAddressMapKeyType") [] [(.var (str! "identifier_name"))]), (.var (str! "start")), (.var (str! "end"))])⟩,
   -- 575
   ⟨[some (str! "identifier_name")], [(0, true, str! "start"), (1, false, str! "end")],
    (.node (str! "WithMetaData") [str! "node", str! "start", str! "end"] [(.node (str! "NodeTypeMapKey::AddressMapKeyType") [] [(.var (str! "identifier_name"))]), (.var (str! "start")), (.var (str! "end"))])⟩,
   -- 601
   ⟨[some (str! "n")], [(0, true, str! "start"), (1, false, str! "end")],
    (.node (str! "WithMetaData") [str! "node", str! "start", str! "end"] [(.node (str! "NodeTypeMapValue::MapValueTypeOrEnumLikeIdentifier") [] [(.var (str! "n"))]), (.var (str! "start")), (.var (str! "end"))])⟩,
   -- 606
   ⟨[none, some (str! "k"), some (str! "v")], [(0, true, str! "start"), (3, false, str! "end")],
    (.node (str! "WithMetaData") [str! "node", str! "start", str! "end"] [(.node (str! "NodeTypeMapValue::MapKeyValue") [] [(.node (str! "WithMetaData") [str! "node", str! "start", str! "end"] [(.node (str! "NodeTypeMapEntry") [str! "key", str! "value"] [(.var (str! "k")), (.var (str! "v"))]), (.var (str! "start")), (.var (str! "end"))])]), (.var (str! "start")), (.var (str! "end"))])⟩,
   -- 617
   ⟨[none, some (str! "t"), none], [(0, true, str! "start"), (3, false, str! "end")],
    (.node (str! "WithMetaData") [str! "node", str! "start", str! "end"] [(.node (str! "NodeTypeMapValue::MapValueParenthesizedType") [] [(.var (str! "t"))]), (.var (str! "start")), (.var (str! "end"))])⟩,
   -- 622
   ⟨[some (str! "t")], [(0, true, str! "start"), (1, false, str! "end")],
    (.node (str! "WithMetaData") [str! "node", str! "start", str! "end"] [(.node (str! "NodeTypeMapValue::MapValueAddressType") [] [(.var (str! "t"))]), (.var (str! "start")), (.var (str! "end"))])⟩,
   -- 646
   ⟨[none, some (str! "type_map_value"), none], [(0, true, str! "start"), (3, false, str! "end")],
    (.node (str! "WithMetaData") [str! "node", str! "start", str! "end"] [(.node (str! "NodeTypeMapValueArguments::EnclosedTypeMapValue") [] [(.var (str! "type_map_value"))]), (.var (str! "start")), (.var (str! "end"))])⟩,
   -- 652
   ⟨[some (str! "identifier_name")], [(0, true, str! "start"), (1, false, str! "end")],
    (.node (str! "WithMetaData") [str! "node", str! "start", str! "end"] [(.node (str! "NodeTypeMapValueArguments::GenericMapValueArgument") [] [(.var (str! "identifier_name"))]), (.var (str! "start")), (.var (str! "end"))])⟩,
   -- 657
   ⟨[none, some (str! "key_type"), some (str! "value_type")], [(0, true, str! "start"), (3, false, str! "end")],
    (.node (str! "WithMetaData") [str! "node", str! "start", str! "end"] [(.node (str! "NodeTypeMapValueArguments::MapKeyValueType") [] [(.var (str! "key_type")), (.var (str! "value_type"))]), (.var (str! "start")), (.var (str! "end"))])⟩,
   -- 681
   ⟨[none, some (str! "version"), some (str! "import_declarations"), some (str! "library_definition"), some (str! "contract_definition")], [],
    (.node (str! "NodeProgram") [str! "version", str! "import_declarations", str! "library_definition", str! "contract_definition"] [(.var (str! "version")), (.var (str! "import_declarations")), (.var (str! "library_definition")), (.var (str! "contract_definition"))])⟩,
   -- 704
   ⟨[none, some (str! "l"), some (str! "d")], [(0, true, str! "start"), (3, false, str! "end")],
    (.node (str! "WithMetaData") [str! "node", str! "start", str! "end"] [(.node (str! "NodeLibraryDefinition") [str! "name", str! "definitions"] [(.var (str! "l")), (.var (str! "d"))]), (.var (str! "start")), (.var (str! "end"))])⟩,
   -- 736
   ⟨[none, some (str! "variable_name"), some (str! "type_annotation"), none, some (str! "expression")], [(0, true, str! "start"), (5, false, str! "end")],
    (.node (str! "WithMetaData") [str! "node", str! "start", str! "end"] [(.node (str! "NodeLibrarySingleDefinition::LetDefinition") [str! "variable_name", str! "type_annotation", str! "expression"] [(.var (str! "variable_name")), (.var (str! "type_annotation")), (.var (str! "expression"))]), (.var (str! "start")), (.var (str! "end"))])⟩,
   -- 747
   ⟨[none, some (str! "type_name")], [(0, true, str! "start"), (2, false, str! "end")],
    (.node (str! "WithMetaData") [str! "node", str! "start", str! "end"] [(.node (str! "NodeLibrarySingleDefinition::TypeDefinition") [] [(.var (str! "type_name")), (.node (str! "None") [] [])]), (.var (str! "start")), (.var (str! "end"))])⟩,
   -- 752
   ⟨[none, some (str! "type_name"), none, some (str! "variations")], [(0, true, str! "start"), (4, false, str! "end")],
    (.node (str! "WithMetaData") [str! "node", str! "start", str! "end"] [(.node (str! "NodeLibrarySingleDefinition::TypeDefinition") [] [(.var (str! "type_name")), (.node (str! "Some") [] [(.var (str! "variations"))])]), (.var (str! "start")), (.var (str! "end"))])⟩,
   -- 795
   ⟨[some (str! "identifier_name"), some (str! "annotation")], [(0, true, str! "start"), (2, false, str! "end")],
    (.node (str! "WithMetaData") [str! "node", str! "start", str! "end"] [(.node (str! "NodeTypedIdentifier") [str! "identifier_name", str! "annotation"] [(.var (str! "identifier_name")), (.var (str! "annotation"))]), (.var (str! "start")), (.var (str! "end"))])⟩,
   -- 816
   ⟨[none, some (str! "type_name")], [(0, true, str! "start"), (2, false, str! "end")],
    (.node (str! "WithMetaData") [str! "node", str! "start", str! "end"] [(.node (str! "NodeTypeAnnotation") [str! "type_name"] [(.var (str! "type_name"))]), (.var (str! "start")), (.var (str! "end"))])⟩,
   -- 838
   ⟨[none, some (str! "n")], [(0, true, str! "start"), (2, false, str! "end")],
    (.node (str! "WithMetaData") [str! "node", str! "start", str! "end"] [(.node (str! "NodeTypeAlternativeClause::ClauseType") [] [(.var (str! "n"))]), (.var (str! "start")), (.var (str! "end"))])⟩,
   -- 843
   ⟨[none, some (str! "n"), none, some (str! "t")], [(0, true, str! "start"), (4, false, str! "end")],
    (.node (str! "WithMetaData") [str! "node", str! "start", str! "end"] [(.node (str! "NodeTypeAlternativeClause::ClauseTypeWithArgs") [] [(.var (str! "n")), (.var (str! "t"))]), (.var (str! "start")), (.var (str! "end"))])⟩,
   -- 867
   ⟨[some (str! "n"), some (str! "args")], [(0, true, str! "start"), (2, false, str! "end")],
    (.node (str! "WithMetaData") [str! "node", str! "start", str! "end"] [(.node (str! "NodeTypeMapValueAllowingTypeArguments::TypeMapValueWithArgs") [] [(.var (str! "n")), (.var (str! "args"))]), (.var (str! "start")), (.var (str! "end"))])⟩,
   -- 873
   ⟨[some (str! "t")], [(0, true, str! "start"), (1, false, str! "end")],
    (.node (str! "WithMetaData") [str! "node", str! "start", str! "end"] [(.node (str! "NodeTypeMapValueAllowingTypeArguments::TypeMapValueNoArgs") [] [(.var (str! "t"))]), (.var (str! "start")), (.var (str! "end"))])⟩,
   -- 891
   ⟨[none, some (str! "type_arguments"), none], [(0, true, str! "start"), (3, false, str! "end")],
    (.node (str! "WithMetaData") [str! "node", str! "start", str! "end"] [(.node (str! "NodeContractTypeArguments") [str! "type_arguments"] [(.var (str! "type_arguments"))]), (.var (str! "start")), (.var (str! "end"))])⟩,
   -- 922
   ⟨[none, some (str! "identifier_name"), some (str! "type_annotation"), none, some (str! "expression"), none, some (str! "containing_expression")], [(0, true, str! "start"), (7, false, str! "end")],
    (.node (str! "WithMetaData") [str! "node", str! "start", str! "end"] [(.node (str! "NodeFullExpression::LocalVariableDeclaration") [str! "identifier_name", str! "expression", str! "type_annotation", str! "containing_expression"] [(.var (str! "identifier_name")), (.var (str! "expression")), (.var (str! "type_annotation")), (.var (str! "containing_expression"))]), (.var (str! "start")), (.var (str! "end"))])⟩,
   -- 935
   ⟨[none, none, some (str! "identier_value"), some (str! "t"), none, none, some (str! "expression")], [(0, true, str! "start"), (7, false, str! "end")],
    (.node (str! "WithMetaData") [str! "node", str! "start", str! "end"] [(.node (str! "NodeFullExpression::FunctionDeclaration") [str! "identier_value", str! "type_annotation", str! "expression"] [(.var (str! "identier_value")), (.var (str! "t")), (.var (str! "expression"))]), (.var (str! "start")), (.var (str! "end"))])⟩,
   -- 945
   ⟨[some (str! "function_name"), some (str! "argument_list")], [(0, true, str! "start"), (2, false, str! "end")],
    (.node (str! "WithMetaData") [str! "node", str! "start", str! "end"] [(.node (str! "NodeFullExpression::FunctionCall") [str! "function_name", str! "argument_list"] [(.var (str! "function_name")), (.var (str! "argument_list"))]), (.var (str! "start")), (.var (str! "end"))])⟩,
   -- 954
   ⟨[some (str! "atomic_expression")], [(0, true, str! "start"), (1, false, str! "end")],
    (.node (str! "WithMetaData") [str! "node", str! "start", str! "end"] [(.node (str! "NodeFullExpression::ExpressionAtomic") [] [(.var (str! "atomic_expression"))]), (.var (str! "start")), (.var (str! "end"))])⟩,
   -- 961
   ⟨[none, some (str! "b"), some (str! "targs"), some (str! "xs")], [(0, true, str! "start"), (4, false, str! "end")],
    (.node (str! "WithMetaData") [str! "node", str! "start", str! "end"] [(.node (str! "NodeFullExpression::ExpressionBuiltin") [str! "b", str! "targs", str! "xs"] [(.var (str! "b")), (.var (str! "targs")), (.var (str! "xs"))]), (.var (str! "start")), (.var (str! "end"))])⟩,
   -- 967
   ⟨[none, some (str! "m"), some (str! "messages"), none], [(0, true, str! "start"), (4, false, str! "end")],
    (.node (str! "WithMetaData") [str! "node", str! "start", str! "end"] [(.block [.let_ (str! "message_entries") (.vec []), .push (str! "message_entries") [] (.var (str! "m")), .for_ (str! "message") (.var (str! "messages")) (.push (str! "message_entries") [] (.var (str! "message")))] (.node (str! "NodeFullExpression::Message") [] [(.var (str! "message_entries"))])), (.var (str! "start")), (.var (str! "end"))])⟩,
   -- 979
   ⟨[none, some (str! "match_expression"), none, some (str! "clauses"), none], [(0, true, str! "start"), (5, false, str! "end")],
    (.node (str! "WithMetaData") [str! "node", str! "start", str! "end"] [(.node (str! "NodeFullExpression::Match") [str! "match_expression", str! "clauses"] [(.var (str! "match_expression")), (.var (str! "clauses"))]), (.var (str! "start")), (.var (str! "end"))])⟩,
   -- 988
   ⟨[some (str! "identifier_name"), some (str! "contract_type_arguments"), some (str! "argument_list")], [(0, true, str! "start"), (3, false, str! "end")],
    (.node (str! "WithMetaData") [str! "node", str! "start", str! "end"] [(.node (str! "NodeFullExpression::ConstructorCall") [str! "identifier_name", str! "contract_type_arguments", str! "argument_list"] [(.var (str! "identifier_name")), (.var (str! "contract_type_arguments")), (.var (str! "argument_list"))]), (.var (str! "start")), (.var (str! "end"))])⟩,
   -- 995
   ⟨[none, some (str! "identifier_name"), none, some (str! "expression")], [(0, true, str! "start"), (4, false, str! "end")],
    (.node (str! "WithMetaData") [str! "node", str! "start", str! "end"] [(.node (str! "NodeFullExpression::TemplateFunction") [str! "identifier_name", str! "expression"] [(.var (str! "identifier_name")), (.var (str! "expression"))]), (.var (str! "start")), (.var (str! "end"))])⟩,
   -- 1001
   ⟨[none, some (str! "identifier_name"), some (str! "type_arguments")], [(0, true, str! "start"), (3, false, str! "end")],
    (.node (str! "WithMetaData") [str! "node", str! "start", str! "end"] [(.node (str! "NodeFullExpression::TApp") [str! "identifier_name", str! "type_arguments"] [(.var (str! "identifier_name")), (.var (str! "type_arguments"))]), (.var (str! "start")), (.var (str! "end"))])⟩,
   -- 1022
   ⟨[none, some (str! "p"), none, some (str! "e")], [(0, true, str! "start"), (4, false, str! "end")],
    (.node (str! "WithMetaData") [str! "node", str! "start", str! "end"] [(.node (str! "NodePatternMatchExpressionClause") [str! "pattern", str! "expression"] [(.var (str! "p")), (.var (str! "e"))]), (.var (str! "start")), (.var (str! "end"))])⟩,
   -- 1045
   ⟨[none], [(0, true, str! "start"), (1, false, str! "end")],
    (.node (str! "WithMetaData") [str! "node", str! "start", str! "end"] [(.node (str! "NodePattern::Wildcard") [] []), (.var (str! "start")), (.var (str! "end"))])⟩,
   -- 1051
   ⟨[some (str! "identifier_name")], [(0, true, str! "start"), (1, false, str! "end")],
    (.node (str! "WithMetaData") [str! "node", str! "start", str! "end"] [(.node (str! "NodePattern::Binder") [] [(.var (str! "identifier_name"))]), (.var (str! "start")), (.var (str! "end"))])⟩,
   -- 1057
   ⟨[some (str! "meta"), some (str! "constructor_arguments")], [(0, true, str! "start"), (2, false, str! "end")],
    (.node (str! "WithMetaData") [str! "node", str! "start", str! "end"] [(.node (str! "NodePattern::Constructor") [] [(.var (str! "meta")), (.var (str! "constructor_arguments"))]), (.var (str! "start")), (.var (str! "end"))])⟩,
   -- 1080
   ⟨[none], [(0, true, str! "start"), (1, false, str! "end")],
    (.node (str! "WithMetaData") [str! "node", str! "start", str! "end"] [(.node (str! "NodeArgumentPattern::WildcardArgument") [] []), (.var (str! "start")), (.var (str! "end"))])⟩,
   -- 1086
   ⟨[some (str! "binding_identifier")], [(0, true, str! "start"), (1, false, str! "end")],
    (.node (str! "WithMetaData") [str! "node", str! "start", str! "end"] [(.node (str! "NodeArgumentPattern::BinderArgument") [] [(.var (str! "binding_identifier"))]), (.var (str! "start")), (.var (str! "end"))])⟩,
   -- 1092
   ⟨[some (str! "identifier_name")], [(0, true, str! "start"), (1, false, str! "end")],
    (.node (str! "WithMetaData") [str! "node", str! "start", str! "end"] [(.node (str! "NodeArgumentPattern::ConstructorArgument") [] [(.var (str! "identifier_name"))]), (.var (str! "start")), (.var (str! "end"))])⟩,
   -- 1098
   ⟨[none, some (str! "pattern_expression"), none], [(0, true, str! "start"), (3, false, str! "end")],
    (.node (str! "WithMetaData") [str! "node", str! "start", str! "end"] [(.node (str! "NodeArgumentPattern::PatternArgument") [] [(.var (str! "pattern_expression"))]), (.var (str! "start")), (.var (str! "end"))])⟩,
   -- 1120
   ⟨[none, some (str! "message")], [],
    (.var (str! "message"))⟩,
   -- 1124
   ⟨[some (str! "i"), none, some (str! "v")], [(0, true, str! "start"), (3, false, str! "end")],
    (.node (str! "WithMetaData") [str! "node", str! "start", str! "end"] [(.node (str! "NodeMessageEntry::MessageLiteral") [] [(.var (str! "i")), (.var (str! "v"))]), (.var (str! "start")), (.var (str! "end"))])⟩,
   -- 1130
   ⟨[some (str! "i"), none, some (str! "v")], [(0, true, str! "start"), (3, false, str! "end")],
    (.node (str! "WithMetaData") [str! "node", str! "start", str! "end"] [(.node (str! "NodeMessageEntry::MessageVariable") [] [(.var (str! "i")), (.var (str! "v"))]), (.var (str! "start")), (.var (str! "end"))])⟩,
   -- 1147
   ⟨[some (str! "variable_identifier")], [(0, true, str! "start"), (1, false, str! "end")],
    (.node (str! "WithMetaData") [str! "node", str! "start", str! "end"] [(.node (str! "NodeAtomicExpression::AtomicSid") [] [(.var (str! "variable_identifier"))]), (.var (str! "start")), (.var (str! "end"))])⟩,
   -- 1153
   ⟨[some (str! "value_literal")], [(0, true, str! "start"), (1, false, str! "end")],
    (.node (str! "WithMetaData") [str! "node", str! "start", str! "end"] [(.node (str! "NodeAtomicExpression::AtomicLit") [] [(.var (str! "value_literal"))]), (.var (str! "start")), (.var (str! "end"))])⟩,
   -- 1181
   ⟨[some (str! "n"), some (str! "v")], [(0, true, str! "start"), (2, true, str! "end")],
    (.node (str! "WithMetaData") [str! "node", str! "start", str! "end"] [(.node (str! "NodeValueLiteral::LiteralInt") [] [(.var (str! "n")), (.var (str! "v"))]), (.var (str! "start")), (.var (str! "end"))])⟩,
   -- 1187
   ⟨[some (str! "node")], [(0, true, str! "start"), (1, false, str! "end")],
    (.node (str! "WithMetaData") [str! "node", str! "start", str! "end"] [(.node (str! "NodeValueLiteral::LiteralHex") [] [(.var (str! "node"))]), (.var (str! "start")), (.var (str! "end"))])⟩,
   -- 1193
   ⟨[some (str! "s")], [(0, true, str! "start"), (1, false, str! "end")],
    (.node (str! "WithMetaData") [str! "node", str! "start", str! "end"] [(.node (str! "NodeValueLiteral::LiteralString") [] [(.var (str! "s"))]), (.var (str! "start")), (.var (str! "end"))])⟩,
   -- 1199
   ⟨[none, some (str! "key_type"), some (str! "value_type")], [(0, true, str! "start"), (3, false, str! "end")],
    (.node (str! "WithMetaData") [str! "node", str! "start", str! "end"] [(.node (str! "NodeValueLiteral::LiteralEmptyMap") [] [(.var (str! "key_type")), (.var (str! "value_type"))]), (.var (str! "start")), (.var (str! "end"))])⟩,
   -- 1240
   ⟨[some (str! "identifier_name"), none, some (str! "right_hand_side")], [],
    (.node (str! "NodeStatement::Load") [str! "left_hand_side", str! "right_hand_side"] [(.var (str! "identifier_name")), (.var (str! "right_hand_side"))])⟩,
   -- 1245
   ⟨[some (str! "r")], [],
    (.node (str! "NodeStatement::RemoteFetch") [] [(.var (str! "r"))])⟩,
   -- 1246
   ⟨[some (str! "identifier_name"), none, some (str! "right_hand_side")], [],
    (.node (str! "NodeStatement::Store") [str! "left_hand_side", str! "right_hand_side"] [(.var (str! "identifier_name")), (.var (str! "right_hand_side"))])⟩,
   -- 1251
   ⟨[some (str! "identifier_name"), none, some (str! "right_hand_side")], [],
    (.node (str! "NodeStatement::Bind") [str! "left_hand_side", str! "right_hand_side"] [(.var (str! "identifier_name")), (.var (str! "right_hand_side"))])⟩,
   -- 1257
   ⟨[some (str! "identifier_name"), none, none, some (str! "type_name"), some (str! "arguments")], [],
    (.node (str! "NodeStatement::ReadFromBC") [str! "left_hand_side", str! "type_name", str! "arguments"] [(.var (str! "identifier_name")), (.var (str! "type_name")), (.var (str! "arguments"))])⟩,
   -- 1263
   ⟨[some (str! "identifier_name"), none, some (str! "right_hand_side"), some (str! "keys")], [],
    (.node (str! "NodeStatement::MapGet") [str! "left_hand_side", str! "keys", str! "right_hand_side"] [(.var (str! "identifier_name")), (.var (str! "keys")), (.var (str! "right_hand_side"))])⟩,
   -- 1269
   ⟨[some (str! "identifier_name"), none, none, some (str! "right_hand_side"), some (str! "keys")], [],
    (.node (str! "NodeStatement::MapGetExists") [str! "left_hand_side", str! "keys", str! "right_hand_side"] [(.var (str! "identifier_name")), (.var (str! "keys")), (.var (str! "right_hand_side"))])⟩,
   -- 1275
   ⟨[some (str! "identifier_name"), some (str! "keys"), none, some (str! "right_hand_side")], [],
    (.node (str! "NodeStatement::MapUpdate") [str! "left_hand_side", str! "keys", str! "right_hand_side"] [(.var (str! "identifier_name")), (.var (str! "keys")), (.var (str! "right_hand_side"))])⟩,
   -- 1281
   ⟨[none, some (str! "identifier_name"), some (str! "keys")], [],
    (.node (str! "NodeStatement::MapUpdateDelete") [str! "left_hand_side", str! "keys"] [(.var (str! "identifier_name")), (.var (str! "keys"))])⟩,
   -- 1286
   ⟨[none], [],
    (.node (str! "NodeStatement::Accept") [] [])⟩,
   -- 1287
   ⟨[none, some (str! "identifier_name")], [],
    (.node (str! "NodeStatement::Send") [str! "identifier_name"] [(.var (str! "identifier_name"))])⟩,
   -- 1290
   ⟨[none, some (str! "identifier_name")], [],
    (.node (str! "NodeStatement::CreateEvnt") [str! "identifier_name"] [(.var (str! "identifier_name"))])⟩,
   -- 1293
   ⟨[none, some (str! "error_variable")], [],
    (.node (str! "NodeStatement::Throw") [str! "error_variable"] [(.var (str! "error_variable"))])⟩,
   -- 1296
   ⟨[none, some (str! "variable"), none, some (str! "clauses"), none], [],
    (.node (str! "NodeStatement::MatchStmt") [str! "variable", str! "clauses"] [(.var (str! "variable")), (.var (str! "clauses"))])⟩,
   -- 1300
   ⟨[some (str! "component_id"), some (str! "arguments")], [],
    (.node (str! "NodeStatement::CallProc") [str! "component_id", str! "arguments"] [(.var (str! "component_id")), (.var (str! "arguments"))])⟩,
   -- 1305
   ⟨[none, some (str! "identifier_name"), some (str! "component_id")], [],
    (.node (str! "NodeStatement::Iterate") [str! "identifier_name", str! "component_id"] [(.var (str! "identifier_name")), (.var (str! "component_id"))])⟩,
   -- 1313
   ⟨[none, some (str! "statement")], [],
    (.var (str! "statement"))⟩,
   -- 1330
   ⟨[some (str! "first_statement"), some (str! "statement_list")], [(0, true, str! "start"), (2, false, str! "end")],
    (.node (str! "WithMetaData") [str! "node", str! "start", str! "end"] [(.block [.let_ (str! "statements") (.vec []), .push (str! "statements") [] (.var (str! "first_statement")), .for_ (str! "stmt") (.var (str! "statement_list")) (.push (str! "statements") [] (.var (str! "stmt")))] (.node (str! "NodeStatementBlock") [str! "statements"] [(.var (str! "statements"))])), (.var (str! "start")), (.var (str! "end"))])⟩,
   -- 1359
   ⟨[none, some (str! "arguments"), none], [],
    (.node (str! "NodeBlockchainFetchArguments") [str! "arguments"] [(.var (str! "arguments"))])⟩,
   -- 1378
   ⟨[some (str! "identifier")], [(0, true, str! "start"), (1, false, str! "end")],
    (.node (str! "WithMetaData") [str! "node", str! "start", str! "end"] [(.node (str! "NodeComponentId::WithTypeLikeName") [] [(.var (str! "identifier"))]), (.var (str! "start")), (.var (str! "end"))])⟩,
   -- 1384
   ⟨[some (str! "identifier")], [(0, true, str! "start"), (1, false, str! "end")],
    (.node (str! "WithMetaData") [str! "node", str! "start", str! "end"] [(.node (str! "NodeComponentId::WithRegularId") [] [(.var (str! "identifier"))]), (.var (str! "start")), (.var (str! "end"))])⟩,
   -- 1407
   ⟨[none, some (str! "pattern_expression"), none, some (str! "statement_block")], [(0, true, str! "start"), (4, false, str! "end")],
    (.node (str! "WithMetaData") [str! "node", str! "start", str! "end"] [(.node (str! "NodePatternMatchClause") [str! "pattern_expression", str! "statement_block"] [(.var (str! "pattern_expression")), (.var (str! "statement_block"))]), (.var (str! "start")), (.var (str! "end"))])⟩,
   -- 1441
   ⟨[some (str! "left_hand_side"), none, none, some (str! "address_id"), none, some (str! "right_hand_side")], [],
    (.node (str! "NodeRemoteFetchStatement::ReadStateMutable") [] [(.var (str! "left_hand_side")), (.var (str! "address_id")), (.var (str! "right_hand_side"))])⟩,
   -- 1448
   ⟨[some (str! "left_hand_side"), none, none, some (str! "address_id"), none, some (str! "right_hand_side")], [],
    (.node (str! "NodeRemoteFetchStatement::ReadStateMutableSpecialId") [] [(.var (str! "left_hand_side")), (.var (str! "address_id")), (.var (str! "right_hand_side"))])⟩,
   -- 1455
   ⟨[some (str! "left_hand_side"), none, none, some (str! "address_id"), none, some (str! "member_id"), some (str! "map_accesses")], [],
    (.node (str! "NodeRemoteFetchStatement::ReadStateMutableMapAccess") [] [(.var (str! "left_hand_side")), (.var (str! "address_id")), (.var (str! "member_id")), (.var (str! "map_accesses"))])⟩,
   -- 1466
   ⟨[some (str! "left_hand_side"), none, none, none, some (str! "address_id"), none, some (str! "member_id"), some (str! "map_accesses")], [],
    (.node (str! "NodeRemoteFetchStatement::ReadStateMutableMapAccessExists") [] [(.var (str! "left_hand_side")), (.var (str! "address_id")), (.var (str! "member_id")), (.var (str! "map_accesses"))])⟩,
   -- 1477
   ⟨[some (str! "left_hand_side"), none, none, some (str! "address_id"), none, some (str! "address_type")], [],
    (.node (str! "NodeRemoteFetchStatement::ReadStateMutableCastAddress") [] [(.var (str! "left_hand_side")), (.var (str! "address_id")), (.var (str! "address_type"))])⟩,
   -- 1498
   ⟨[none, some (str! "identifier_name"), none], [(0, true, str! "start"), (3, false, str! "end")],
    (.node (str! "WithMetaData") [str! "node", str! "start", str! "end"] [(.node (str! "NodeMapAccess") [str! "identifier_name"] [(.var (str! "identifier_name"))]), (.var (str! "start")), (.var (str! "end"))])⟩,
   -- 1517
   ⟨[some (str! "identifier_with_type")], [(0, true, str! "start"), (1, false, str! "end")],
    (.node (str! "WithMetaData") [str! "node", str! "start", str! "end"] [(.node (str! "NodeParameterPair") [str! "identifier_with_type"] [(.var (str! "identifier_with_type"))]), (.var (str! "start")), (.var (str! "end"))])⟩,
   -- 1529
   ⟨[none, some (str! "p")], [],
    (.var (str! "p"))⟩,
   -- 1544
   ⟨[none, some (str! "p"), some (str! "next_params"), none], [(0, true, str! "start"), (4, false, str! "end")],
    (.node (str! "WithMetaData") [str! "node", str! "start", str! "end"] [(.block [.let_ (str! "parameters") (.vec []), .ifSome (str! "pair") (.var (str! "p")) (.push (str! "parameters") [] (.var (str! "pair"))), .for_ (str! "p") (.var (str! "next_params")) (.push (str! "parameters") [] (.var (str! "p")))] (.node (str! "NodeComponentParameters") [str! "parameters"] [(.var (str! "parameters"))])), (.var (str! "start")), (.var (str! "end"))])⟩,
   -- 1578
   ⟨[some (str! "definition")], [(0, true, str! "start"), (1, false, str! "end")],
    (.node (str! "WithMetaData") [str! "node", str! "start", str! "end"] [(.node (str! "NodeComponentDefinition::TransitionComponent") [] [(.var (str! "definition"))]), (.var (str! "start")), (.var (str! "end"))])⟩,
   -- 1584
   ⟨[some (str! "definition")], [(0, true, str! "start"), (1, false, str! "end")],
    (.node (str! "WithMetaData") [str! "node", str! "start", str! "end"] [(.node (str! "NodeComponentDefinition::ProcedureComponent") [] [(.var (str! "definition"))]), (.var (str! "start")), (.var (str! "end"))])⟩,
   -- 1604
   ⟨[none, some (str! "name"), some (str! "parameters"), some (str! "body")], [(0, true, str! "start"), (4, false, str! "end")],
    (.node (str! "WithMetaData") [str! "node", str! "start", str! "end"] [(.node (str! "NodeTransitionDefinition") [str! "name", str! "parameters", str! "body"] [(.var (str! "name")), (.var (str! "parameters")), (.var (str! "body"))]), (.var (str! "start")), (.var (str! "end"))])⟩,
   -- 1624
   ⟨[none, some (str! "name"), some (str! "parameters"), some (str! "body")], [(0, true, str! "start"), (4, false, str! "end")],
    (.node (str! "WithMetaData") [str! "node", str! "start", str! "end"] [(.node (str! "NodeProcedureDefinition") [str! "name", str! "parameters", str! "body"] [(.var (str! "name")), (.var (str! "parameters")), (.var (str! "body"))]), (.var (str! "start")), (.var (str! "end"))])⟩,
   -- 1647
   ⟨[some (str! "statement_block"), none], [(0, true, str! "start"), (2, false, str! "end")],
    (.node (str! "WithMetaData") [str! "node", str! "start", str! "end"] [(.node (str! "NodeComponentBody") [str! "statement_block"] [(.var (str! "statement_block"))]), (.var (str! "start")), (.var (str! "end"))])⟩,
   -- 1672
   ⟨[none, some (str! "contract_name"), some (str! "parameters"), some (str! "constraint"), some (str! "fields"), some (str! "components")], [(0, true, str! "start"), (6, false, str! "end")],
    (.node (str! "WithMetaData") [str! "node", str! "start", str! "end"] [(.node (str! "NodeContractDefinition") [str! "contract_name", str! "parameters", str! "constraint", str! "fields", str! "components"] [(.var (str! "contract_name")), (.var (str! "parameters")), (.var (str! "constraint")), (.var (str! "fields")), (.var (str! "components"))]), (.var (str! "start")), (.var (str! "end"))])⟩,
   -- 1706
   ⟨[none, some (str! "typed_identifier"), none, some (str! "right_hand_side")], [(0, true, str! "start"), (4, false, str! "end")],
    (.node (str! "WithMetaData") [str! "node", str! "start", str! "end"] [(.node (str! "NodeContractField") [str! "typed_identifier", str! "right_hand_side"] [(.var (str! "typed_identifier")), (.var (str! "right_hand_side"))]), (.var (str! "start")), (.var (str! "end"))])⟩,
   -- 1725
   ⟨[none, some (str! "expression"), none], [(0, true, str! "start"), (3, false, str! "end")],
    (.node (str! "WithMetaData") [str! "node", str! "start", str! "end"] [(.node (str! "NodeWithConstraint") [str! "expression"] [(.var (str! "expression"))]), (.var (str! "start")), (.var (str! "end"))])⟩,
   -- 1736
   ⟨[some (str! "node")], [(0, true, str! "start"), (1, false, str! "end")],
    (.node (str! "WithMetaData") [str! "node", str! "start", str! "end"] [(.var (str! "node")), (.var (str! "start")), (.var (str! "end"))])⟩,
   -- 1756
   ⟨[some (str! "node")], [(0, true, str! "start"), (1, false, str! "end")],
    (.node (str! "WithMetaData") [str! "node", str! "start", str! "end"] [(.var (str! "node")), (.var (str! "start")), (.var (str! "end"))])⟩,
   -- 1775
   ⟨[some (str! "node")], [(0, true, str! "start"), (1, false, str! "end")],
    (.node (str! "WithMetaData") [str! "node", str! "start", str! "end"] [(.var (str! "node")), (.var (str! "start")), (.var (str! "end"))])⟩,
   -- 1791
   ⟨[some (str! "node")], [(0, true, str! "start"), (1, false, str! "end")],
    (.node (str! "WithMetaData") [str! "node", str! "start", str! "end"] [(.var (str! "node")), (.var (str! "start")), (.var (str! "end"))])⟩,
   -- 1810
   ⟨[some (str! "node")], [(0, true, str! "start"), (1, false, str! "end")],
    (.node (str! "WithMetaData") [str! "node", str! "start", str! "end"] [(.var (str! "node")), (.var (str! "start")), (.var (str! "end"))])⟩,
   -- 1818
   ⟨[some (str! "node")], [(0, true, str! "start"), (1, false, str! "end")],
    (.node (str! "WithMetaData") [str! "node", str! "start", str! "end"] [(.var (str! "node")), (.var (str! "start")), (.var (str! "end"))])⟩,
   -- 1826
   ⟨[some (str! "node")], [(0, true, str! "start"), (1, false, str! "end")],
    (.node (str! "WithMetaData") [str! "node", str! "start", str! "end"] [(.var (str! "node")), (.var (str! "start")), (.var (str! "end"))])⟩]

end Verif
