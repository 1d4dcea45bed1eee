import Verif.Spec.Parts
import Verif.Model.Types
/-
What a contract and the beginning of one have in common (C83).
-/
namespace Verif

/-- no backslash directly followed by a quote -/
def NoEscape (s : Str) : Prop := ¬ str! "\\\"" <:+: s

/-- the contract `a` is the beginning of the contract `b`: the same name and parameters, the first fields, and, if there
are all fields, the first transitions -/
structure Contract.Begins (a b : Contract) : Prop where
  name : a.name = b.name
  params : a.initParams = b.initParams
  fields : a.fields <+: b.fields
  transitions : a.transitions <+: b.transitions
  order : a.transitions ≠ [] → a.fields = b.fields

/-- the same for outlines; initial values and bodies do not count -/
structure Outline.Begins (a b : Outline) : Prop where
  version : a.version = b.version
  imports : a.imports = b.imports
  library : a.library = b.library
  name : a.name = b.name
  params : a.params = b.params
  fields : a.fields.map (·.declared) <+: b.fields.map (·.declared)
  components : a.components.map (fun c => (c.isTransition, c.name, c.params)) <+:
    b.components.map (fun c => (c.isTransition, c.name, c.params))
  order : a.components ≠ [] → a.constraint = b.constraint ∧ a.fields = b.fields

end Verif
