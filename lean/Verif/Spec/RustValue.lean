import Verif.Spec.Grammar
/-
Rust values of the syntax tree in a uniform way, and the expressions in the actions of parser.lalrpop.
-/
namespace Verif

/-- A value: a string, a position, a vector, or a structure or variant, with its path (`NodeByteStr::Type`), the names of
its fields (none for a tuple) and their values.  `Some(x)` and `None` are variants, a `Box` is what it contains. -/
inductive RV where
  | str (s : Str)
  | pos (p : Pos)
  | vec (l : List RV)
  | node (path : Str) (fields : List Str) (args : List RV)

mutual
/-- the expressions of the actions -/
inductive Ex where
  | var (x : Str)
  | text (s : Str)
  /-- `P { f: e, … }`, `P(e, …)` or `P` -/
  | node (path : Str) (fields : List Str) (args : List Ex)
  /-- `vec![…]`, `[…].to_vec()`, `Vec::new()` -/
  | vec (l : List Ex)
  /-- `e.f` -/
  | field (e : Ex) (f : Str)
  /-- `e.unwrap_or(d)` -/
  | orElse (e d : Ex)
  /-- `{ s; …; e }` -/
  | block (ss : List St) (e : Ex)

/-- the statements in the actions -/
inductive St where
  /-- `let mut x = e;` -/
  | let_ (x : Str) (e : Ex)
  /-- `x.push(e);` or `x.f.push(e);` -/
  | push (x : Str) (path : List Str) (e : Ex)
  /-- `for y in e { s }` -/
  | for_ (y : Str) (e : Ex) (s : St)
  /-- `if let Some(y) = e { s }` -/
  | ifSome (y : Str) (e : Ex) (s : St)
end

/-- the variables in scope, the innermost first -/
abbrev Scope := List (Str × RV)

def Scope.get : Scope → Str → Option RV
  | [], _ => none
  | (y, v) :: ρ, x => if x = y then some v else Scope.get ρ x

/-- assignment to a variable in scope -/
def Scope.set : Scope → Str → RV → Scope
  | [], _, _ => []
  | (y, v) :: ρ, x, v' => if x = y then (y, v') :: ρ else (y, v) :: Scope.set ρ x v'

/-- the field of a structure -/
def RV.get (f : Str) : List Str → List RV → Option RV
  | g :: gs, v :: vs => if f = g then some v else RV.get f gs vs
  | _, _ => none

def RV.set (f : Str) (v' : RV) : List Str → List RV → List RV
  | g :: gs, v :: vs => if f = g then v' :: vs else v :: RV.set f v' gs vs
  | _, vs => vs

/-- `v.path.push(x)` -/
def RV.pushAt (x : RV) : List Str → RV → Option RV
  | [], .vec l => some (.vec (l ++ [x]))
  | f :: path, .node p fs vs =>
    match RV.get f fs vs with
    | some v => match RV.pushAt x path v with
      | some v' => some (.node p fs (RV.set f v' fs vs))
      | none => none
    | none => none
  | _, _ => none

def RV.none : RV := .node (str! "None") [] []
def RV.some (v : RV) : RV := .node (str! "Some") [] [v]

/-- the content of an `Option` value -/
def RV.option : RV → Option (Option RV)
  | .node p _ vs => if p = str! "None" then Option.some Option.none else
      if p = str! "Some" then match vs with | [v] => Option.some (Option.some v) | _ => Option.none else Option.none
  | _ => Option.none

mutual
/-- the value of an expression (`none`: the expression does not make sense) -/
def Ex.eval (ρ : Scope) : Ex → Option RV
  | .var x => ρ.get x
  | .text s => some (.str s)
  | .node p fs es => match Ex.evals ρ es with
    | some vs => some (.node p fs vs)
    | none => none
  | .vec es => match Ex.evals ρ es with
    | some vs => some (.vec vs)
    | none => none
  | .field e f => match e.eval ρ with
    | some (.node _ fs vs) => RV.get f fs vs
    | _ => none
  | .orElse e d => match e.eval ρ with
    | some v => match v.option with
      | some (some v) => some v
      | some none => d.eval ρ
      | none => none
    | none => none
  | .block ss e => match St.execs ρ ss with
    | some ρ' => e.eval ρ'
    | none => none

def Ex.evals (ρ : Scope) : List Ex → Option (List RV)
  | [] => some []
  | e :: es => match e.eval ρ with
    | some v => match Ex.evals ρ es with
      | some vs => some (v :: vs)
      | none => none
    | none => none

/-- the variables after a statement -/
def St.exec (ρ : Scope) : St → Option Scope
  | .let_ x e => match e.eval ρ with
    | some v => some ((x, v) :: ρ)
    | none => none
  | .push x path e => match e.eval ρ with
    | some v => match ρ.get x with
      | some u => match RV.pushAt v path u with
        | some u' => some (ρ.set x u')
        | none => none
      | none => none
    | none => none
  | .for_ y e s => match e.eval ρ with
    | some (.vec l) => l.foldlM (fun ρ v => (St.exec ((y, v) :: ρ) s).map List.tail) ρ
    | _ => none
  | .ifSome y e s => match e.eval ρ with
    | some v => match v.option with
      | some (some v) => (St.exec ((y, v) :: ρ) s).map List.tail
      | some none => some ρ
      | none => none
    | none => none

def St.execs (ρ : Scope) : List St → Option Scope
  | [] => some ρ
  | s :: ss => match s.exec ρ with
    | some ρ' => St.execs ρ' ss
    | none => none
end

/-- The action of a production: the names given to its symbols, the position markers (the number of symbols before
them, whether `@L` or `@R`, and their name), and the expression. -/
structure FAct where
  names : List (Option Str)
  marks : List (Nat × Bool × Str)
  body : Ex

/-- start and end of a piece of the input; `none` if it is empty -/
abbrev Span := Option (Pos × Pos)

/-- the first start in a list of pieces -/
def firstStart : List Span → Option Pos
  | [] => none
  | none :: l => firstStart l
  | some p :: _ => some p.1

/-- the last end in a list of pieces -/
def lastEnd : List Span → Option Pos
  | [] => none
  | x :: l => match lastEnd l with
    | some q => some q
    | none => x.map (·.2)

/-- `@L` after `i` symbols: the start of what follows or, at the end of the production, the end of what is before;
`@R`: the end of what is before or, at the beginning, the start of what follows.  (lalrpop 0.20,
`rust/build/action.rs`, `emit_inline_action_code`.) -/
def markPos (spans : List Span) (i : Nat) (isL : Bool) : Pos :=
  let after := firstStart (spans.drop i)
  let before := lastEnd (spans.take i)
  if isL then (after.or before).getD default else (before.or after).getD default

/-- the named values -/
def bindNames : List (Option Str) → List RV → Scope
  | some x :: xs, v :: vs => (x, v) :: bindNames xs vs
  | none :: xs, _ :: vs => bindNames xs vs
  | _, _ => []

/-- The value the action computes for symbols with these pieces of input and values. -/
def FAct.value (a : FAct) (args : List (Span × RV)) : Option RV :=
  a.body.eval (a.marks.map (fun m => (m.2.2, .pos (markPos (args.map (·.1)) m.1 m.2.1))) ++ bindNames a.names (args.map (·.2)))

end Verif
