import Verif.Props.Emitter1
/-
For the generated files of this directory.
-/
namespace Verif

/-- the result is a contract -/
def ParseResult.isOk : ParseResult → Bool
  | .ok _ => true
  | _ => false

end Verif
