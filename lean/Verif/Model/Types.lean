import Verif.Model.Token
/-
Public result types and the simplified representation:
src/type.rs, src/field.rs, src/transition.rs, src/contract.rs 10-21,
src/simplified_representation/primitives.rs.
-/
namespace Verif

mutual
/-- `enum Type`, src/type.rs 7-39 -/
inductive Ty where
  | int32 | int64 | int128 | int256
  | uint32 | uint64 | uint128 | uint256
  | string
  | bNum
  | map (k v : Ty)
  | byStr
  | byStrX (n : Nat)
  | byStr20
  | byStr20With (typeName : Str) (fields : List Field)
  | bool
  | option (t : Ty)
  | pair (a b : Ty)
  | list (t : Ty)
  | other (s : Str)

/-- `struct Field`, src/field.rs 3-7 (fields `name`, `type`) -/
inductive Field where
  | mk (name : Str) (type : Ty)
end

/-- `struct Transition`, src/transition.rs 3-7 -/
structure Transition where
  name : Str
  params : List Field

/-- `struct Contract`, src/contract.rs 10-21; `Default` gives empty name and lists. -/
structure Contract where
  name : Str
  initParams : List Field
  fields : List Field
  transitions : List Transition

/-- `Contract::default()`, contract.rs 9-21 -/
def Contract.empty : Contract := ⟨[], [], [], []⟩

/-- Decimal digits of a number (`Display` of `usize`; std, used at type.rs 60) -/
def natDigits (n : Nat) : Str := Nat.toDigits 10 n

mutual
/-- `impl Display for Type`, src/type.rs 41-73 -/
def Ty.display : Ty → Str
  | .int32 => str! "Int32"
  | .int64 => str! "Int64"
  | .int128 => str! "Int128"
  | .int256 => str! "Int256"
  | .uint32 => str! "Uint32"
  | .uint64 => str! "Uint64"
  | .uint128 => str! "Uint128"
  | .uint256 => str! "Uint256"
  | .string => str! "String"
  | .bNum => str! "BNum"
  | .bool => str! "Bool"
  | .map k v => str! "(Map " ++ k.display ++ str! ", " ++ v.display ++ str! ")"
  | .option k => str! "(Option " ++ k.display ++ str! ")"
  | .list k => str! "(List " ++ k.display ++ str! ")"
  | .pair k v => str! "(Pair " ++ k.display ++ str! " " ++ v.display ++ str! ")"
  | .byStr => str! "ByStr"
  | .byStrX n => str! "ByStr" ++ natDigits n
  | .byStr20 => str! "ByStr20"
  | .byStr20With n fs => str! "ByStr20 with " ++ n ++ displayFields fs ++ str! " end"
  | .other s => s

/-- the `fields` string of type.rs 63-67: `field {name}: {type}` joined by `", "` -/
def displayFields : List Field → Str
  | [] => []
  | [⟨n, t⟩] => str! "field " ++ n ++ str! ": " ++ t.display
  | ⟨n, t⟩ :: f :: fs =>
    str! "field " ++ n ++ str! ": " ++ t.display ++ str! ", " ++ displayFields (f :: fs)
end

/-- `struct AddressType` and `struct SrType`, primitives.rs 41-52 -/
inductive SrType where
  | mk (mainType : Str) (subTypes : List SrType) (addressType : Option (Str × List Field))

/-- `From<SrIdentifier> for SrType`, primitives.rs 60-68 -/
def SrType.ofName (s : Str) : SrType := .mk s [] none

/-- `push_sub_type`, primitives.rs 54-58 -/
def SrType.pushSubType : SrType → SrType → SrType
  | .mk m ts a, t => .mk m (ts ++ [t]) a

/-- `main_type.address_type = Some(..)`, emitter.rs 344-347 -/
def SrType.setAddress : SrType → Str × List Field → SrType
  | .mk m ts _, a => .mk m ts (some a)

/-- the digit loop of `str::parse::<usize>` (std, used at type.rs 112) -/
def parseDigits (acc : Nat) : Str → Option Nat
  | [] => some acc
  | c :: s =>
    if isDigitC c then
      let n := acc * 10 + (c.toNat - 48)
      if n < 2 ^ 64 then parseDigits n s else none
    else none
where isDigitC (c : Char) : Bool := 48 ≤ c.toNat && c.toNat ≤ 57

/-- `str::parse::<usize>` on a 64-bit target: empty and overflowing inputs fail, a leading `+` is
allowed when followed by something (std, used at type.rs 112) -/
def parseUsize : Str → Option Nat
  | [] => none
  | ['+'] => none
  | '+' :: s => parseDigits 0 s
  | s => parseDigits 0 s

/-- `str::strip_prefix("ByStr")` (std, used at type.rs 111) -/
def stripByStr : Str → Option Str
  | 'B' :: 'y' :: 'S' :: 't' :: 'r' :: s => some s
  | _ => none

/-- the names with a fixed meaning, src/type.rs 78-89 -/
def baseType (m : Str) : Option Ty :=
  if m = str! "Int32" then some .int32
  else if m = str! "Int64" then some .int64
  else if m = str! "Int128" then some .int128
  else if m = str! "Int256" then some .int256
  else if m = str! "Uint32" then some .uint32
  else if m = str! "Uint64" then some .uint64
  else if m = str! "Uint128" then some .uint128
  else if m = str! "Uint256" then some .uint256
  else if m = str! "String" then some .string
  else if m = str! "ByStr" then some .byStr
  else if m = str! "BNum" then some .bNum
  else if m = str! "Bool" then some .bool
  else none

/-- the last arms, src/type.rs 103-119 -/
def otherType (m : Str) (a : Option (Str × List Field)) : Ty :=
  if m = str! "ByStr20" then
    match a with
    | none => .byStr20
    | some (n, fs) => .byStr20With n fs
  else
    match (stripByStr m).bind parseUsize with
    | some n => .byStrX n
    | none => .other m

mutual
/-- `impl From<SrType> for Type`, src/type.rs 75-122; `none` = panic (`unwrap` on an empty
`sub_types`, lines 91-102).  `sub_types.pop()` takes from the end. -/
def SrType.toTy : SrType → Option Ty
  | .mk m ts a =>
    match baseType m with
    | some t => some t
    | none =>
      if m = str! "Option" then
        match convLast ts with
        | (some (some t), _) => some (.option t)
        | _ => none
      else if m = str! "List" then
        match convLast ts with
        | (some (some t), _) => some (.list t)
        | _ => none
      else if m = str! "Pair" then
        match convLast ts with
        | (some (some t2), some (some t1)) => some (.pair t1 t2)
        | _ => none
      else if m = str! "Map" then
        match convLast ts with
        | (some (some v), some (some k)) => some (.map k v)
        | _ => none
      else some (otherType m a)

/-- conversions of the last and of the last but one element of `sub_types`
(outer `none`: no such element; type.rs 91-102) -/
def convLast : List SrType → Option (Option Ty) × Option (Option Ty)
  | [] => (none, none)
  | [t] => (some t.toTy, none)
  | t :: ts =>
    match convLast ts with
    | (some x, none) => (some x, some t.toTy)
    | r => r
end

end Verif
