import Verif.Spec.Rename
import Verif.Model.Types
/-
Renaming in results, and the names the crate itself knows.
-/
namespace Verif

mutual
/-- apply `f` to the names in a type: user-defined types and the tag and field names of address types -/
def Ty.ren (f : Str → Str) : Ty → Ty
  | .map k v => .map (k.ren f) (v.ren f)
  | .option t => .option (t.ren f)
  | .pair a b => .pair (a.ren f) (b.ren f)
  | .list t => .list (t.ren f)
  | .byStr20With tag fs => .byStr20With (f tag) (renFields f fs)
  | .other s => .other (f s)
  | .int32 => .int32
  | .int64 => .int64
  | .int128 => .int128
  | .int256 => .int256
  | .uint32 => .uint32
  | .uint64 => .uint64
  | .uint128 => .uint128
  | .uint256 => .uint256
  | .string => .string
  | .bNum => .bNum
  | .byStr => .byStr
  | .byStrX n => .byStrX n
  | .byStr20 => .byStr20
  | .bool => .bool
def renFields (f : Str → Str) : List Field → List Field
  | [] => []
  | ⟨x, t⟩ :: fs => ⟨f x, t.ren f⟩ :: renFields f fs
end

def Field.ren (f : Str → Str) : Field → Field
  | ⟨x, t⟩ => ⟨f x, t.ren f⟩

def Transition.ren (f : Str → Str) (t : Transition) : Transition := ⟨f t.name, t.params.map (Field.ren f)⟩

/-- apply `f` to all names of a contract -/
def Contract.ren (f : Str → Str) (c : Contract) : Contract :=
  ⟨f c.name, c.initParams.map (Field.ren f), c.fields.map (Field.ren f),
    c.transitions.map (Transition.ren f)⟩

/-- Texts with a meaning of their own: the names of the built-in types, the tags of address types, the
keyword `Event` (which is also shown as a name), and the empty text (the tag of plain `with end`). -/
def fixedNames : List Str :=
  [str! "Int32", str! "Int64", str! "Int128", str! "Int256",
   str! "Uint32", str! "Uint64", str! "Uint128", str! "Uint256",
   str! "String", str! "BNum", str! "Bool", str! "Option", str! "List", str! "Pair", str! "Map",
   str! "Event", str! "contract", str! "library", []]

/-- also every name that starts with `ByStr` -/
def Reserved (s : Str) : Prop := s ∈ fixedNames ∨ str! "ByStr" <+: s

/-- A renaming: reserved texts stay, other texts do not become reserved. -/
structure Renaming (f : Str → Str) : Prop where
  keeps : ∀ s, Reserved s → f s = s
  avoids : ∀ s, Reserved (f s) → Reserved s

mutual
/-- the names in a type -/
def Ty.names : Ty → List Str
  | .map k v => k.names ++ v.names
  | .option t => t.names
  | .pair a b => a.names ++ b.names
  | .list t => t.names
  | .byStr20With tag fs => tag :: fieldsNames fs
  | .other s => [s]
  | _ => []
def fieldsNames : List Field → List Str
  | [] => []
  | ⟨x, t⟩ :: fs => x :: (t.names ++ fieldsNames fs)
end

/-- all names in a contract: its own, those of parameters, fields and transitions, and those in their types -/
def Contract.names (c : Contract) : List Str :=
  c.name :: (fieldsNames c.initParams ++ fieldsNames c.fields ++
    c.transitions.flatMap fun t => t.name :: fieldsNames t.params)

end Verif
