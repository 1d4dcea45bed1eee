import Verif.Model.TreeText
/-
`{:#?}` (also `dbg!`): the derived `Debug` of the syntax trees and of the results in its alternate form, as
`core::fmt::builders` writes it: every field and every element on its own line, inside a `PadAdapter`.
-/
namespace Verif

/-- `PadAdapter` (core::fmt::builders): four blanks at the start of every line; `atStart`: the next character starts a
line -/
def padded : Bool → Str → Str
  | _, [] => []
  | atStart, c :: s => (if atStart then str! "    " else []) ++ c :: padded (c == '\n') s

section
variable (esc : Char → Str)

/-- `{:#?}` of a number is `{:?}` (core::fmt) -/
def prettyNumField (name : Str) (n : Nat) : Str := padded true (name ++ (str! ": " ++ (natDigits n ++ str! ",\n")))

/-- `{:#?}` of `SourcePosition`, lexer.rs 209-214 -/
def Pos.pretty (p : Pos) : Str :=
  str! "SourcePosition {\n" ++ (prettyNumField (str! "position") p.position ++ (prettyNumField (str! "line") p.line ++
    (prettyNumField (str! "column") p.column ++ str! "}")))

mutual
/-- `DebugList`, `DebugTuple`, `DebugStruct` with `f.alternate()`; unit variants and empty lists as in `{:?}` (core::fmt::builders; derives of nodes.rs) -/
def RV.pretty : RV → Str
  | .str s => debugStr esc s
  | .pos p => p.pretty
  | .vec [] => str! "[]"
  | .vec (v :: l) => str! "[\n" ++ (RV.prettyItems (v :: l) ++ str! "]")
  | .node p [] [] => shortName p
  | .node p [] (v :: vs) => shortName p ++ (str! "(\n" ++ (RV.prettyItems (v :: vs) ++ str! ")"))
  | .node p (f :: fs) vs => shortName p ++ (str! " {\n" ++ (RV.prettyFields (f :: fs) vs ++ str! "}"))
/-- `DebugList::entry`, `DebugTuple::field` (core::fmt::builders) -/
def RV.prettyItems : List RV → Str
  | [] => []
  | v :: l => padded true (v.pretty ++ str! ",\n") ++ RV.prettyItems l
/-- `DebugStruct::field` (core::fmt::builders) -/
def RV.prettyFields : List Str → List RV → Str
  | f :: fs, v :: vs => padded true (f ++ (str! ": " ++ (v.pretty ++ str! ",\n"))) ++ RV.prettyFields fs vs
  | _, _ => []
end
end

/-! ### The results as Rust values -/

mutual
/-- `Type`, type.rs 5-40; the number of `ByStrX`, which prints as its digits, is represented by a variant of that name -/
def Ty.rv : Ty → RV
  | .int32 => .node (str! "Int32") [] []
  | .int64 => .node (str! "Int64") [] []
  | .int128 => .node (str! "Int128") [] []
  | .int256 => .node (str! "Int256") [] []
  | .uint32 => .node (str! "Uint32") [] []
  | .uint64 => .node (str! "Uint64") [] []
  | .uint128 => .node (str! "Uint128") [] []
  | .uint256 => .node (str! "Uint256") [] []
  | .string => .node (str! "String") [] []
  | .bNum => .node (str! "BNum") [] []
  | .bool => .node (str! "Bool") [] []
  | .map k v => .node (str! "Map") [] [k.rv, v.rv]
  | .option t => .node (str! "Option") [] [t.rv]
  | .list t => .node (str! "List") [] [t.rv]
  | .pair a b => .node (str! "Pair") [] [a.rv, b.rv]
  | .byStr => .node (str! "ByStr") [] []
  | .byStrX n => .node (str! "ByStrX") [] [.node (natDigits n) [] []]
  | .byStr20 => .node (str! "ByStr20") [] []
  | .byStr20With n fs => .node (str! "ByStr20With") [str! "type_name", str! "fields"]
      [.str n, .node (str! "FieldList") [] [.vec (fieldsRv fs)]]
  | .other s => .node (str! "Other") [] [.str s]
/-- `Field`, field.rs 3-7 -/
def fieldsRv : List Field → List RV
  | [] => []
  | ⟨n, t⟩ :: fs => .node (str! "Field") [str! "name", str! "type"] [.str n, t.rv] :: fieldsRv fs
end

/-- `FieldList`, field.rs 33-34 -/
def fieldListRv (fs : List Field) : RV := .node (str! "FieldList") [] [.vec (fieldsRv fs)]

/-- `Transition`, transition.rs 3-7 -/
def Transition.rv (t : Transition) : RV :=
  .node (str! "Transition") [str! "name", str! "params"] [.str t.name, fieldListRv t.params]

/-- `Contract`, contract.rs 9-21; `TransitionList`, transition.rs 25-26 -/
def Contract.rv (c : Contract) : RV :=
  .node (str! "Contract") [str! "name", str! "init_params", str! "fields", str! "transitions"]
    [.str c.name, fieldListRv c.initParams, fieldListRv c.fields,
     .node (str! "TransitionList") [] [.vec (c.transitions.map Transition.rv)]]

end Verif
