import Verif.Model.Debug
import Verif.Spec.NodeTypes
/-
What the crate derives for the types of the syntax tree: `#[derive(Debug)]` and `#[derive(PartialOrd)]`
(nodes.rs, above every type, e.g. 6, 25, 46; lexer.rs 212).  Derived implementations are determined by the type
declarations; they are modelled once, on Rust values (`RV`).
-/
namespace Verif

/-- the name of a variant without the name of its type: what stands after the last `::` of the path (as `derive(Debug)` writes names, e.g. nodes.rs 25) -/
def shortName (path : Str) : Str := (path.reverse.takeWhile (· ≠ ':')).reverse

section
variable (esc : Char → Str)

mutual
/-- `{:?}` of a value: strings in quotes, `[a, b]` for vectors, `Name`, `Name(a, b)` or `Name { f: a, g: b }` for
variants and structures (derives of nodes.rs, e.g. line 25) -/
def RV.debug : RV → Str
  | .str s => debugStr esc s
  | .pos p => p.debug
  | .vec [] => str! "[]"
  | .vec (v :: l) => str! "[" ++ (v.debug ++ (RV.debugMore l ++ str! "]"))
  | .node p [] [] => shortName p
  | .node p [] (v :: vs) => shortName p ++ (str! "(" ++ (v.debug ++ (RV.debugMore vs ++ str! ")")))
  | .node p (f :: _) [] => shortName p ++ (str! " { " ++ f)
  | .node p (f :: fs) (v :: vs) =>
    shortName p ++ (str! " { " ++ (f ++ (str! ": " ++ (v.debug ++ (RV.debugFieldsMore fs vs ++ str! " }")))))
/-- `, a, b` (core::fmt::builders) -/
def RV.debugMore : List RV → Str
  | [] => []
  | v :: l => str! ", " ++ (v.debug ++ RV.debugMore l)
/-- `, f: a, g: b` (core::fmt::builders) -/
def RV.debugFieldsMore : List Str → List RV → Str
  | f :: fs, v :: vs => str! ", " ++ (f ++ (str! ": " ++ (v.debug ++ RV.debugFieldsMore fs vs)))
  | _, _ => []
end
end

/-- lexicographic comparison of strings (Rust compares the bytes of the UTF-8 encoding, which gives the same order as
the code points; std; strings in nodes.rs) -/
def cmpStr : Str → Str → Ordering
  | [], [] => .eq
  | [], _ :: _ => .lt
  | _ :: _, [] => .gt
  | a :: s, b :: t => (compare a.toNat b.toNat).then (cmpStr s t)

/-- `#[derive(PartialOrd)] struct SourcePosition`, lexer.rs 212-217: the fields in order -/
def Pos.cmp (p q : Pos) : Ordering :=
  ((compare p.position q.position).then (compare p.line q.line)).then (compare p.column q.column)

/-- the types declared in nodes.rs, in order -/
def TName.all : List TName :=
  [.NodeByteStr, .NodeTypeNameIdentifier, .NodeImportedName, .NodeImportDeclarations, .NodeMetaIdentifier,
   .NodeVariableIdentifier, .NodeBuiltinArguments, .NodeTypeMapKey, .NodeTypeMapValue, .NodeTypeArgument,
   .NodeScillaType, .NodeTypeMapEntry, .NodeAddressTypeField, .NodeAddressType, .NodeFullExpression,
   .NodeMessageEntry, .NodePatternMatchExpressionClause, .NodeAtomicExpression, .NodeContractTypeArguments,
   .NodeValueLiteral, .NodeMapAccess, .NodePattern, .NodeArgumentPattern, .NodePatternMatchClause,
   .NodeBlockchainFetchArguments, .NodeStatement, .NodeRemoteFetchStatement, .NodeComponentId,
   .NodeComponentParameters, .NodeParameterPair, .NodeComponentBody, .NodeStatementBlock, .NodeTypedIdentifier,
   .NodeTypeAnnotation, .NodeProgram, .NodeLibraryDefinition, .NodeLibrarySingleDefinition,
   .NodeContractDefinition, .NodeContractField, .NodeWithConstraint, .NodeComponentDefinition,
   .NodeProcedureDefinition, .NodeTransitionDefinition, .NodeTypeAlternativeClause, .NodeTypeMapValueArguments,
   .NodeTypeMapValueAllowingTypeArguments]

/-- all variants, those of each type in the order of its declaration; first those of `Option` (nodes.rs 6-824) -/
def variantPaths : List Str :=
  [str! "None", str! "Some", str! "WithMetaData"] ++ TName.all.flatMap fun t => t.variants.map (·.path)

mutual
/-- `partial_cmp` as derived (always `Some` of this): variants in the order of their declaration, then the fields from
first to last; vectors lexicographically.  (The last case does not occur for values of the same type.; derives of nodes.rs, e.g. line 25) -/
def RV.cmp : RV → RV → Ordering
  | .str s, .str t => cmpStr s t
  | .pos p, .pos q => p.cmp q
  | .vec l, .vec m => RV.cmpList l m
  | .node p _ vs, .node q _ ws => (compare (variantPaths.idxOf p) (variantPaths.idxOf q)).then (RV.cmpList vs ws)
  | _, _ => .eq
/-- element by element, a proper prefix is smaller (std, `Vec<T>: PartialOrd`) -/
def RV.cmpList : List RV → List RV → Ordering
  | [], [] => .eq
  | [], _ :: _ => .lt
  | _ :: _, [] => .gt
  | v :: vs, w :: ws => (v.cmp w).then (RV.cmpList vs ws)
end

end Verif
