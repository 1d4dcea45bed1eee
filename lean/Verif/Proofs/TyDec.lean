import Verif.Model.Contract
/-
Decidable equality of result types (`#[derive(PartialEq)]` in src/type.rs, src/field.rs,
src/transition.rs, src/contract.rs), used to compute concrete cases in the kernel.
-/
namespace Verif

mutual
def Ty.beq : Ty → Ty → Bool
  | .int32, .int32 => true
  | .int64, .int64 => true
  | .int128, .int128 => true
  | .int256, .int256 => true
  | .uint32, .uint32 => true
  | .uint64, .uint64 => true
  | .uint128, .uint128 => true
  | .uint256, .uint256 => true
  | .string, .string => true
  | .bNum, .bNum => true
  | .map k v, .map k' v' => k.beq k' && v.beq v'
  | .byStr, .byStr => true
  | .byStrX n, .byStrX m => n == m
  | .byStr20, .byStr20 => true
  | .byStr20With n fs, .byStr20With n' fs' => n == n' && fieldsBeq fs fs'
  | .bool, .bool => true
  | .option t, .option t' => t.beq t'
  | .pair a b, .pair a' b' => a.beq a' && b.beq b'
  | .list t, .list t' => t.beq t'
  | .other s, .other s' => s == s'
  | _, _ => false
def Field.beq : Field → Field → Bool
  | .mk n t, .mk n' t' => n == n' && t.beq t'
def fieldsBeq : List Field → List Field → Bool
  | [], [] => true
  | f :: fs, g :: gs => f.beq g && fieldsBeq fs gs
  | _, _ => false
end

mutual
theorem Ty.beq_iff : ∀ a b : Ty, a.beq b = true ↔ a = b := by
  intro a b
  cases a with
  | map k v =>
    cases b <;> simp [Ty.beq]
    rename_i k' v'
    rw [Ty.beq_iff k k', Ty.beq_iff v v']
  | option t => cases b <;> simp [Ty.beq]; rename_i t'; exact Ty.beq_iff t t'
  | list t => cases b <;> simp [Ty.beq]; rename_i t'; exact Ty.beq_iff t t'
  | pair k v =>
    cases b <;> simp [Ty.beq]
    rename_i k' v'
    rw [Ty.beq_iff k k', Ty.beq_iff v v']
  | byStr20With n fs =>
    cases b <;> simp [Ty.beq]
    rename_i n' fs'
    rw [fieldsBeq_iff fs fs']
    intro _; rfl
  | _ => cases b <;> simp [Ty.beq]
theorem Field.beq_iff : ∀ a b : Field, a.beq b = true ↔ a = b
  | .mk n t, .mk n' t' => by simp [Field.beq, Ty.beq_iff t t']
theorem fieldsBeq_iff : ∀ a b : List Field, fieldsBeq a b = true ↔ a = b
  | [], [] => by simp [fieldsBeq]
  | [], _ :: _ => by simp [fieldsBeq]
  | _ :: _, [] => by simp [fieldsBeq]
  | f :: fs, g :: gs => by simp [fieldsBeq, Field.beq_iff f g, fieldsBeq_iff fs gs]
end

instance : DecidableEq Ty := fun a b => decidable_of_iff _ (Ty.beq_iff a b)
instance : DecidableEq Field := fun a b => decidable_of_iff _ (Field.beq_iff a b)
deriving instance DecidableEq for Transition
deriving instance DecidableEq for Contract
deriving instance DecidableEq for Outcome
deriving instance DecidableEq for ParseResult

end Verif
