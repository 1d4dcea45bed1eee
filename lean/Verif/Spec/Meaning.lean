import Verif.Spec.Print
/-
What the tokens of a type, and of a whole program, declare.  A second account of the interface, on tokens instead of
syntax trees: the parts of a program that make up its interface are described here without the grammar of
parser.lalrpop; of the rest (imports, library, constraint, initial values, bodies, procedures) it is only said which
phrases they are (`Is`).
-/
namespace Verif

/-- a type name: capitalised, or `ByStr` with digits -/
inductive WordTok : Str → Token → Prop
  | upper (s : Str) : '+' ∉ s → WordTok s (.customIdentifier s)
  | bytes (s : Str) : '+' ∉ s → WordTok s (.byStrWithSize s)

/-- a type name with a possible qualification: `T`, `M.T` (the namespace `M` is lost), `0x12.T`, `ByStr` -/
inductive NameSays : List Token → List Str → Str → Prop
  | word {s : Str} {t : Token} : WordTok s t → NameSays [t] [] s
  | inNamespace {m s : Str} {k t : Token} : WordTok m k → WordTok s t → NameSays [k, .dot, t] [m] s
  | inHexspace {h s : Str} {t : Token} : WordTok s t → NameSays [.hexNumber h, .dot, t] [] s
  | byStr : NameSays [.byStr] [] (str! "ByStr")

/-- a map, if its key and its value are given -/
def mapOf : Option Ty → Option Ty → Option Ty
  | some k, some v => some (.map k v)
  | _, _ => none

/-- the tag of an address type that has no fields -/
inductive TagSays : List Token → Str → Prop
  | none : TagSays [] []
  | contract : TagSays [.contract] (str! "contract")
  | library : TagSays [.library] (str! "library")
  | special (s : Str) : TagSays [.specialIdentifier s] s

/-- where a type stands: on its own, as an argument of a type, as the key or the value of a map, and, inside the value
of a map, in parentheses or as an argument -/
inductive Place where
  | alone
  | argument
  | key
  | value
  | valueInParens
  | valueArgument

/-- where plain names stand alone -/
def Place.name : Place → Bool
  | .alone => false
  | .valueInParens => false
  | _ => true

/-- where maps and address types stand without parentheses -/
def Place.compound : Place → Bool
  | .key => false
  | .valueArgument => false
  | _ => true

/-- what stands in parentheses at a place -/
def Place.parens : Place → Option Place
  | .alone => some .alone
  | .argument => some .alone
  | .key => none
  | .value => some .valueInParens
  | .valueInParens => some .valueInParens
  | .valueArgument => some .valueInParens

/-- the arguments of a type at a place -/
def Place.args : Place → Option Place
  | .alone => some .argument
  | .valueInParens => some .valueArgument
  | _ => none

mutual
/-- `Says place w lost t`: at this place the tokens `w` mean the type `t`; `lost` are the namespaces that are ignored, the
last one first.  `t = none` if there are too few arguments for `Option`, `List` or `Pair`: such a type has no
meaning, but may stand among the superfluous arguments of another one. -/
inductive Says : Place → List Token → List Str → Option Ty → Prop
  /-- a name -/
  | name {p : Place} {w : List Token} {l : List Str} {s : Str} : p.name = true → NameSays w l s →
      Says p w l (namedType s [])
  /-- a name with arguments -/
  | apply {p q : Place} {w ws : List Token} {l ls : List Str} {s : Str} {os : List (Option Ty)} : p.args = some q →
      NameSays w l s → SaysAll q ws ls os → Says p (w ++ ws) (ls ++ l) (namedType s os)
  /-- a map: its value must not have a namespace -/
  | map {p : Place} {w v : List Token} {l : List Str} {k t : Option Ty} : p.compound = true →
      Says .key w l k → Says .value v [] t → Says p (.map :: (w ++ v)) l (mapOf k t)
  /-- `T with … end` -/
  | address {p : Place} {k : Token} {s tag : Str} {w : List Token} : p.compound = true → WordTok s k → TagSays w tag →
      Says p (k :: .with_ :: (w ++ [.end_])) [] (addressType s tag [])
  /-- `T with contract field x : U, … end` -/
  | addressFields {p : Place} {k : Token} {s x : Str} {w ws : List Token} {l ls : List Str} {t : Ty} {fs : List Field} :
      p.compound = true → WordTok s k → Says .alone w l (some t) → SaysFields ws ls fs →
      Says p (k :: .with_ :: .contract :: .field :: .identifier x :: .colon :: (w ++ (ws ++ [.end_]))) (ls ++ l)
        (addressType s (str! "contract") (⟨x, t⟩ :: fs))
  /-- parentheses -/
  | parens {p q : Place} {w : List Token} {l : List Str} {t : Option Ty} : p.parens = some q → Says q w l t →
      Says p (.openParen :: (w ++ [.closeParen])) l t
  /-- a map key in parentheses -/
  | parensKey {w : List Token} {l : List Str} {s : Str} : NameSays w l s →
      Says .key (.openParen :: (w ++ [.closeParen])) l (namedType s [])
/-- arguments one after the other -/
inductive SaysAll : Place → List Token → List Str → List (Option Ty) → Prop
  | noArgs {p : Place} : SaysAll p [] [] []
  | arg {p : Place} {w ws : List Token} {l ls : List Str} {o : Option Ty} {os : List (Option Ty)} : Says p w l o →
      SaysAll p ws ls os → SaysAll p (w ++ ws) (ls ++ l) (o :: os)
/-- `, field x : T, field y : U` -/
inductive SaysFields : List Token → List Str → List Field → Prop
  | noFields : SaysFields [] [] []
  | field {x : Str} {w ws : List Token} {l ls : List Str} {t : Ty} {fs : List Field} : Says .alone w l (some t) →
      SaysFields ws ls fs →
      SaysFields (.comma :: .field :: .identifier x :: .colon :: (w ++ ws)) (ls ++ l) (⟨x, t⟩ :: fs)
end

/-- `x : T` -/
inductive TypedSays : List Token → List Str → Field → Prop
  | mk {x : Str} {w : List Token} {l : List Str} {t : Ty} : Says .alone w l (some t) →
      TypedSays (.identifier x :: .colon :: w) l ⟨x, t⟩

/-- `, x : T, y : U` -/
inductive MoreSays : List Token → List Str → List Field → Prop
  | nil : MoreSays [] [] []
  | cons {w ws : List Token} {l ls : List Str} {f : Field} {fs : List Field} : TypedSays w l f → MoreSays ws ls fs →
      MoreSays (.comma :: (w ++ ws)) (ls ++ l) (f :: fs)

/-- `(x : T, y : U)`; the first parameter may have a comma before it -/
inductive ParamsSay : List Token → List Str → List Field → Prop
  | usual {w ws : List Token} {l ls : List Str} {f : Field} {fs : List Field} : TypedSays w l f → MoreSays ws ls fs →
      ParamsSay (.openParen :: (w ++ (ws ++ [.closeParen]))) (ls ++ l) (f :: fs)
  | comma {ws : List Token} {ls : List Str} {fs : List Field} : MoreSays ws ls fs →
      ParamsSay (.openParen :: (ws ++ [.closeParen])) ls fs

/-- `field x : T = e field y : U = e'` -/
inductive FieldsSay : List Token → List Str → List Field → Prop
  | nil : FieldsSay [] [] []
  | cons {w init ws : List Token} {l ls : List Str} {f : Field} {fs : List Field} : TypedSays w l f → Is .fullExpr init →
      FieldsSay ws ls fs → FieldsSay (.field :: (w ++ .equals :: (init ++ ws))) (ls ++ l) (f :: fs)

/-- transitions, whose parameters must not have namespaces, and procedures between them -/
inductive ComponentsSay : List Token → List Transition → Prop
  | nil : ComponentsSay [] []
  | procedure {w ws : List Token} {ts : List Transition} : Is .procDef w → ComponentsSay ws ts →
      ComponentsSay (w ++ ws) ts
  | transition {n : Token} {s : Str} {ps body ws : List Token} {fs : List Field} {ts : List Transition} : NameTok s n →
      ParamsSay ps [] fs → Is .compBody body → ComponentsSay ws ts →
      ComponentsSay (.transition :: n :: (ps ++ (body ++ ws))) (⟨s, fs⟩ :: ts)

/-- a program up to its fields: any version, imports, library and constraint -/
inductive HeadSays : List Token → Str → List Field → Prop
  | mk {ver name : Str} {n : Token} {imps lib ps con : List Token} {ls : List Str} {fs : List Field} :
      Is (.opt .importDecls) imps → Is (.opt .libraryDef) lib → TypeNameTok name n → ParamsSay ps ls fs →
      Is (.opt .withConstraint) con →
      HeadSays (.scillaVersion :: .number ver :: (imps ++ (lib ++ .contract :: n :: (ps ++ con)))) name fs

/-- a program -/
inductive ProgramSays : List Token → Contract → Prop
  | mk {head fields comps : List Token} {name : Str} {ps fs : List Field} {ls : List Str} {ts : List Transition} :
      HeadSays head name ps → FieldsSay fields ls fs → ComponentsSay comps ts →
      ProgramSays (head ++ (fields ++ comps)) ⟨name, ps, fs, ts⟩

/-! ### Programs all of whose types are described here -/

/-- a token that names a type -/
def IsWord (t : Token) : Prop := ∃ s, t = .customIdentifier s ∨ t = .byStrWithSize s

/-- no namespaces and no address types as keys of maps -/
structure NoOddMaps (w : List Token) : Prop where
  names : ∀ k t, IsWord k → IsWord t → ¬ [k, .dot, t] <:+: w
  keys : ∀ k, IsWord k → ¬ [.map, k, .with_] <:+: w
  parenKeys : ∀ k, IsWord k → ¬ [.map, .openParen, k, .with_] <:+: w

/-- Tokens without the word `Event`, where after the keyword `field` there is a name, and where there are no address
types with fields or no odd maps. -/
structure Ordinary (w : List Token) : Prop where
  noEvent : Token.eventType ∉ w
  fields : ∀ t, [.field, t] <:+: w → ∃ x, t = .identifier x
  maps : ¬ [.with_, .contract, .field] <:+: w ∨ NoOddMaps w

end Verif
