import Verif.Spec.Generates
/-
The outline of a program: the sequence of parts it consists of, as token lists.  A part is described only by the
name it has in parser.lalrpop; independent of the parser, of the trees and of the emitter.
-/
namespace Verif

/-- `field DECLARED = INITIAL` -/
structure FieldPart where
  declared : List Token
  initial : List Token
deriving DecidableEq

/-- `transition NAME PARAMS BODY` or `procedure NAME PARAMS BODY`; the body includes the final `end` -/
structure ComponentPart where
  isTransition : Bool
  name : List Token
  params : List Token
  body : List Token
deriving DecidableEq

/-- the parts of a program, in their order; empty lists for the three optional ones that are missing -/
structure Outline where
  version : List Token
  imports : List Token
  library : List Token
  name : List Token
  params : List Token
  constraint : List Token
  fields : List FieldPart
  components : List ComponentPart
deriving DecidableEq

def FieldPart.tokens (f : FieldPart) : List Token :=
  .field :: (f.declared ++ .equals :: f.initial)

def ComponentPart.tokens (c : ComponentPart) : List Token :=
  (if c.isTransition then .transition else .procedure) :: (c.name ++ (c.params ++ c.body))

/-- the program with these parts -/
def Outline.tokens (o : Outline) : List Token :=
  .scillaVersion :: (o.version ++ (o.imports ++ (o.library ++ .contract :: (o.name ++ (o.params ++ (o.constraint ++
    (o.fields.flatMap FieldPart.tokens ++ o.components.flatMap ComponentPart.tokens)))))))

structure FieldPart.Ok (f : FieldPart) : Prop where
  declared : Gen [.non .TypedIdentifier] f.declared
  initial : Gen [.non .FullExpression] f.initial

structure ComponentPart.Ok (c : ComponentPart) : Prop where
  name : Gen [.non .ComponentId] c.name
  params : Gen [.non .ComponentParameters] c.params
  body : Gen [.non .ComponentBody] c.body

/-- every part is a phrase of its kind -/
structure Outline.Ok (o : Outline) : Prop where
  version : Gen [.non .SignedInteger] o.version
  imports : o.imports = [] ∨ Gen [.non .ImportDeclarations] o.imports
  library : o.library = [] ∨ Gen [.non .LibraryDefinition] o.library
  name : Gen [.non .TypeNameIdentifier] o.name
  params : Gen [.non .ComponentParameters] o.params
  constraint : o.constraint = [] ∨ Gen [.non .WithConstraint] o.constraint
  fields : ∀ f ∈ o.fields, f.Ok
  components : ∀ c ∈ o.components, c.Ok

/-- what a contract shows: its name, its parameters, the declarations of its fields without their initial values, and
the names and parameters of its transitions -/
structure Outline.SameFace (o o' : Outline) : Prop where
  name : o.name = o'.name
  params : o.params = o'.params
  fields : o.fields.map (·.declared) = o'.fields.map (·.declared)
  transitions : (o.components.filter (·.isTransition)).map (fun c => (c.name, c.params)) =
    (o'.components.filter (·.isTransition)).map (fun c => (c.name, c.params))

/-- only the face is left: version 0, no imports, no library, no constraint, no procedures, initial values `x`,
transitions that do nothing -/
def Outline.stub (o : Outline) : Outline where
  version := [.number (str! "0")]
  imports := []
  library := []
  name := o.name
  params := o.params
  constraint := []
  fields := o.fields.map fun f => ⟨f.declared, [.identifier (str! "x")]⟩
  components := (o.components.filter (·.isTransition)).map fun c => ⟨true, c.name, c.params, [.end_]⟩

end Verif
