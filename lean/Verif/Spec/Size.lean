import Verif.Model.Types
import Verif.Model.Token
/-
The size of a result: `a` for every part (type constructor, declaration, transition, contract) and `b` for every character of a name.
With `a = 1`, `b = 0` this is the number of parts, with `a = 0`, `b = 1` the number of characters in names.
-/
namespace Verif

mutual
def Ty.size (a b : Nat) : Ty → Nat
  | .map k v => a + (k.size a b + v.size a b)
  | .option t => a + t.size a b
  | .list t => a + t.size a b
  | .pair t u => a + (t.size a b + u.size a b)
  | .byStr20With tag fs => a + b * tag.length + fieldsSize a b fs
  | .other s => a + b * s.length
  | _ => a
def fieldsSize (a b : Nat) : List Field → Nat
  | [] => 0
  | ⟨x, t⟩ :: fs => (a + b * x.length + t.size a b) + fieldsSize a b fs
end

def transitionsSize (a b : Nat) : List Transition → Nat
  | [] => 0
  | t :: ts => (a + b * t.name.length + fieldsSize a b t.params) + transitionsSize a b ts

def Contract.size (a b : Nat) (c : Contract) : Nat :=
  a + b * c.name.length + fieldsSize a b c.initParams + fieldsSize a b c.fields + transitionsSize a b c.transitions

/-- The number of type constructors and declarations in a contract (the contract itself included). -/
def Contract.parts (c : Contract) : Nat := c.size 1 0

/-- The size of a sequence of tokens: `a` for every token and `b` for every character of it. -/
def tokSize (a b : Nat) : List Token → Nat
  | [] => 0
  | t :: ts => (a + b * t.text.length) + tokSize a b ts

end Verif
