import Verif.Spec.RustValue
/-
Parts of a value: a value, the elements of a vector, the fields of a structure or variant, their parts, and so on.
-/
namespace Verif

/-- `RV.Occurs x v`: the value `x` is `v` or a part of it -/
inductive RV.Occurs (x : RV) : RV → Prop
  | refl : RV.Occurs x x
  | vec {v : RV} {l : List RV} : v ∈ l → RV.Occurs x v → RV.Occurs x (.vec l)
  | node {v : RV} {path : Str} {fields : List Str} {args : List RV} : v ∈ args → RV.Occurs x v →
      RV.Occurs x (.node path fields args)

/-- the variant or structure `path` is used somewhere in `v` -/
def RV.Uses (path : Str) (v : RV) : Prop := ∃ fields args, RV.Occurs (.node path fields args) v

end Verif
