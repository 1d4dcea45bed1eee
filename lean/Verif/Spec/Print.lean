import Verif.Spec.Grammar
import Verif.Spec.Scan
import Verif.Spec.Lexical
import Verif.Spec.Interface
/-
Writing types and interfaces as Scilla source, at the level of tokens.  Independent of the parser, the
emitter and `Display`.
-/
namespace Verif

/-- The token of a type that is written as a single name.  `ByStrX 20` is only written with a leading zero
(`ByStr20` is another type), and byte strings of a length that does not fit 64 bits are taken for user-defined types. -/
def Ty.nameTok : Ty → Option Token
  | .int32 => some (.customIdentifier (str! "Int32"))
  | .int64 => some (.customIdentifier (str! "Int64"))
  | .int128 => some (.customIdentifier (str! "Int128"))
  | .int256 => some (.customIdentifier (str! "Int256"))
  | .uint32 => some (.customIdentifier (str! "Uint32"))
  | .uint64 => some (.customIdentifier (str! "Uint64"))
  | .uint128 => some (.customIdentifier (str! "Uint128"))
  | .uint256 => some (.customIdentifier (str! "Uint256"))
  | .string => some (.customIdentifier (str! "String"))
  | .bNum => some (.customIdentifier (str! "BNum"))
  | .bool => some (.customIdentifier (str! "Bool"))
  | .byStr => some .byStr
  | .byStr20 => some (.byStrWithSize (str! "ByStr20"))
  | .byStrX n => some (.byStrWithSize (if n = 20 then str! "ByStr020" else str! "ByStr" ++ natDigits n))
  | .other s => some (if str! "ByStr" <+: s then .byStrWithSize s else .customIdentifier s)
  | _ => none

/-- tokens in parentheses -/
def inParens (w : List Token) : List Token := .openParen :: (w ++ [.closeParen])

/-- An argument of a type: parenthesised unless it is a single name. -/
def asArg (t : Ty) (w : List Token) : List Token :=
  match t.nameTok with
  | some _ => w
  | none => inParens w

/-- the tag of an address type -/
def tagToks (tag : Str) : List Token :=
  if tag = [] then []
  else if tag = str! "contract" then [.contract]
  else if tag = str! "library" then [.library]
  else [.specialIdentifier tag]

mutual
/-- The canonical spelling of a type. -/
def Ty.toks : Ty → List Token
  | .map k v => .map :: (asArg k k.toks ++ asArg v v.toks)
  | .option t => .customIdentifier (str! "Option") :: asArg t t.toks
  | .list t => .customIdentifier (str! "List") :: asArg t t.toks
  | .pair a b => .customIdentifier (str! "Pair") :: (asArg a a.toks ++ asArg b b.toks)
  | .byStr20With tag fs =>
    .byStrWithSize (str! "ByStr20") :: .with_ :: (tagToks tag ++ (fieldsToks fs ++ [.end_]))
  | t => t.nameTok.toList
/-- `field x : T, field y : U, …` -/
def fieldsToks : List Field → List Token
  | [] => []
  | [⟨x, t⟩] => .field :: .identifier x :: .colon :: t.toks
  | ⟨x, t⟩ :: f :: fs => .field :: .identifier x :: .colon :: (t.toks ++ .comma :: fieldsToks (f :: fs))
end

/-- names with a meaning of their own (`Map` is a keyword) -/
def takenNames : List Str :=
  builtinTypes.map (·.1) ++ [str! "Option", str! "List", str! "Pair", str! "Map"]

mutual
/-- The types that can be written as they are: user-defined types have names that are lexed as such
and are not taken (or are byte strings of a length that does not fit 64 bits), map keys are single names, address
types have fields only after `contract`. -/
def Ty.Writable : Ty → Prop
  | .map k v => k.nameTok.isSome = true ∧ k.Writable ∧ v.Writable
  | .option t => t.Writable
  | .list t => t.Writable
  | .pair a b => a.Writable ∧ b.Writable
  | .byStrX n => n < 2 ^ 64
  | .byStr20With tag fs =>
    (tag = str! "contract" ∨
      (fs = [] ∧ (tag = [] ∨ tag = str! "library" ∨ Printable (.specialIdentifier tag)))) ∧
    fieldsWritable fs
  | .other s => (Printable (.customIdentifier s) ∧ s ∉ takenNames) ∨
      (Printable (.byStrWithSize s) ∧ 2 ^ 64 ≤ digitsValue (s.drop 5))
  | _ => True
def fieldsWritable : List Field → Prop
  | [] => True
  | ⟨x, t⟩ :: fs => Printable (.identifier x) ∧ t.Writable ∧ fieldsWritable fs
end

mutual
/-- The tokens of the text the `Display` of a type gives: maps with a comma, and the tag of an address type
and the word `field` in one word. -/
def Ty.shown : Ty → List Token
  | .map k v => .openParen :: .map :: (k.shown ++ .comma :: (v.shown ++ [.closeParen]))
  | .option t => inParens (.customIdentifier (str! "Option") :: t.shown)
  | .list t => inParens (.customIdentifier (str! "List") :: t.shown)
  | .pair a b => inParens (.customIdentifier (str! "Pair") :: (a.shown ++ b.shown))
  | .byStr20With tag [] => .byStrWithSize (str! "ByStr20") :: .with_ :: (tagToks tag ++ [.end_])
  | .byStr20With tag (⟨x, t⟩ :: fs) =>
    .byStrWithSize (str! "ByStr20") :: .with_ :: .identifier (tag ++ str! "field") :: .identifier x :: .colon ::
      (t.shown ++ (shownMore fs ++ [.end_]))
  | .byStrX n => [.byStrWithSize (str! "ByStr" ++ natDigits n)]
  | t => t.nameTok.toList
def shownMore : List Field → List Token
  | [] => []
  | ⟨x, t⟩ :: fs => .comma :: .field :: .identifier x :: .colon :: (t.shown ++ shownMore fs)
end

/-- types without maps and without fields of address types -/
def Ty.Readable : Ty → Prop
  | .map _ _ => False
  | .byStr20With _ fs => fs = []
  | .option t => t.Readable
  | .list t => t.Readable
  | .pair a b => a.Readable ∧ b.Readable
  | _ => True

mutual
/-- The type with `ByStr20` in the place of `ByStrX 20`: the two are displayed alike. -/
def Ty.canon : Ty → Ty
  | .map k v => .map k.canon v.canon
  | .option t => .option t.canon
  | .list t => .list t.canon
  | .pair a b => .pair a.canon b.canon
  | .byStr20With tag fs => .byStr20With tag (fieldsCanon fs)
  | .byStrX n => if n = 20 then .byStr20 else .byStrX n
  | t => t
def fieldsCanon : List Field → List Field
  | [] => []
  | ⟨x, t⟩ :: fs => ⟨x, t.canon⟩ :: fieldsCanon fs
end

/-- The canonical spelling, or the displayed one, possibly in (any number of) parentheses. -/
inductive Spells : Ty → List Token → Prop
  | plain (t : Ty) : Spells t t.toks
  | shown (t : Ty) : t.Writable → t.Readable → Spells t.canon t.shown
  | paren (t : Ty) (w : List Token) : Spells t w → Spells t (inParens w)

/-- `x : T` -/
inductive SpellsTyped : Field → List Token → Prop
  | mk (x : Str) (t : Ty) (w : List Token) : Spells t w →
      SpellsTyped ⟨x, t⟩ (.identifier x :: .colon :: w)

/-- `, x : T, y : U` -/
inductive SpellsMore : List Field → List Token → Prop
  | nil : SpellsMore [] []
  | cons (f : Field) (fs : List Field) (w ws : List Token) : SpellsTyped f w → SpellsMore fs ws →
      SpellsMore (f :: fs) (.comma :: (w ++ ws))

/-- `(x : T, y : U)` -/
inductive SpellsParams : List Field → List Token → Prop
  | none : SpellsParams [] [.openParen, .closeParen]
  | some (f : Field) (fs : List Field) (w ws : List Token) : SpellsTyped f w → SpellsMore fs ws →
      SpellsParams (f :: fs) (.openParen :: (w ++ (ws ++ [.closeParen])))

/-- tokens without positions, as tokens of the parser -/
def lift (w : List Token) : List STok := w.map fun t => ⟨default, t, default⟩

/-- `w` is a phrase of the grammar (the contents play no role in what follows) -/
def Is (n : NT) (w : List Token) : Prop := ∃ v, Derives n (lift w) v

/-- field definitions with arbitrary initial values -/
inductive SpellsFields : List Field → List Token → Prop
  | nil : SpellsFields [] []
  | cons (f : Field) (fs : List Field) (w init ws : List Token) : SpellsTyped f w →
      Is .fullExpr init → SpellsFields fs ws →
      SpellsFields (f :: fs) (.field :: (w ++ .equals :: (init ++ ws)))

/-- the name of a contract: a capitalised name, `ByStr` with digits, or `Event` -/
inductive TypeNameTok : Str → Token → Prop
  | upper (s : Str) : TypeNameTok s (.customIdentifier s)
  | bytes (s : Str) : TypeNameTok s (.byStrWithSize s)
  | event : TypeNameTok (str! "Event") .eventType

/-- the name of a transition: the same, or a name with a lower-case letter -/
inductive NameTok : Str → Token → Prop
  | lower (s : Str) : NameTok s (.identifier s)
  | type (s : Str) (t : Token) : TypeNameTok s t → NameTok s t

/-- transitions with arbitrary bodies, and arbitrary procedures between them -/
inductive SpellsComponents : List Transition → List Token → Prop
  | nil : SpellsComponents [] []
  | procedure (ts : List Transition) (w ws : List Token) : Is .procDef w → SpellsComponents ts ws →
      SpellsComponents ts (w ++ ws)
  | transition (t : Transition) (ts : List Transition) (n : Token) (ps body ws : List Token) :
      NameTok t.name n → SpellsParams t.params ps → Is .compBody body → SpellsComponents ts ws →
      SpellsComponents (t :: ts) (.transition :: n :: (ps ++ (body ++ ws)))

/-- A program with interface `c`: any version, imports, library, constraint, initial values, bodies,
procedures. -/
inductive SpellsContract : Contract → List Token → Prop
  | mk (c : Contract) (ver : Str) (n : Token) (imps lib ps con fs cs : List Token) : TypeNameTok c.name n →
      Is (.opt .importDecls) imps → Is (.opt .libraryDef) lib → SpellsParams c.initParams ps →
      Is (.opt .withConstraint) con → SpellsFields c.fields fs →
      SpellsComponents c.transitions cs →
      SpellsContract c (.scillaVersion :: .number ver :: (imps ++ (lib ++
        .contract :: n :: (ps ++ (con ++ (fs ++ cs))))))

/-- The interfaces that can be written. -/
structure Contract.Writable (c : Contract) : Prop where
  params : fieldsWritable c.initParams
  fields : fieldsWritable c.fields
  transitions : ∀ t ∈ c.transitions, fieldsWritable t.params

/-! ### A plain printer -/

/-- The token of a contract name. -/
def contractTok (s : Str) : Token :=
  if s = str! "Event" then .eventType
  else if str! "ByStr" <+: s then .byStrWithSize s
  else .customIdentifier s

/-- The token of a transition name. -/
def transitionTok (s : Str) : Token :=
  match s with
  | c :: _ => if 'a' ≤ c ∧ c ≤ 'z' then .identifier s else contractTok s
  | [] => contractTok s

/-- `x : T` -/
def Field.toks : Field → List Token
  | ⟨x, t⟩ => .identifier x :: .colon :: t.toks

/-- `(x : T, y : U)` -/
def paramsToks : List Field → List Token
  | [] => [.openParen, .closeParen]
  | f :: fs => .openParen :: (f.toks ++ ((fs.flatMap fun g => .comma :: g.toks) ++ [.closeParen]))

/-- A contract with the given interface, trivial initial values (`= x`) and empty transitions. -/
def Contract.toks (c : Contract) : List Token :=
  [.scillaVersion, .number (str! "0"), .contract, contractTok c.name] ++
    (paramsToks c.initParams ++
      ((c.fields.flatMap fun f => .field :: (f.toks ++ [.equals, .identifier (str! "x")])) ++
        (c.transitions.flatMap fun t =>
          .transition :: transitionTok t.name :: (paramsToks t.params ++ [.end_]))))

/-- tokens separated by blanks -/
def spaced (w : List Token) : Str := w.flatMap fun t => t.text ++ [' ']

/-- The names of an interface are legal. -/
structure Contract.Named (c : Contract) : Prop where
  name : Printable (contractTok c.name)
  transitions : ∀ t ∈ c.transitions, Printable (transitionTok t.name)

end Verif
