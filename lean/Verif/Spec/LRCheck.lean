import Verif.Spec.LRTables
/-
Concrete LR tables as data, and a check that they fit a grammar.
-/
namespace Verif.LR

/-- an item: production, place of the dot, set of lookaheads (bit 0: the end of the input, bit `a + 1`: terminal `a`) -/
structure Item where
  p : Nat
  d : Nat
  la : Nat
deriving DecidableEq, Repr

/-- a state: its items, and the states its transitions lead to -/
structure State where
  items : List Item
  next : List (Sym × Nat)

/-- the bit of a lookahead -/
def bit : Option Nat → Nat
  | none => 0
  | some a => a + 1

def itemsOf (S : List State) (s : Nat) : List Item := match S[s]? with | some st => st.items | none => []
def nextsOf (S : List State) (s : Nat) : List (Sym × Nat) := match S[s]? with | some st => st.next | none => []

def complete? (G : List Rule) (i : Item) : Bool := match G[i.p]? with | some r => i.d == r.rhs.length | none => false

/-- the tables: reduce a complete item that has the lookahead, otherwise shift -/
def tablesOf (G : List Rule) (S : List State) : Tables where
  action s l :=
    match (itemsOf S s).find? fun i => complete? G i && i.la.testBit (bit l) with
    | some i => .reduce i.p
    | none =>
      match l with
      | none => .error
      | some a => match (nextsOf S s).lookup (.t a) with | some s' => .shift s' | none => .error
  goto s x := ((nextsOf S s).lookup (.n x)).getD 0

def itemSets (S : List State) : Items where
  It s p d := ∃ i ∈ itemsOf S s, i.p = p ∧ i.d = d
  La s p d l := ∃ i ∈ itemsOf S s, i.p = p ∧ i.d = d ∧ i.la.testBit (bit l) = true

/-- `a` is a subset of `b` -/
def sub (a b : Nat) : Bool := a &&& b == a

def firstOf (F : List Nat) : Sym → Nat
  | .t a => 1 <<< (a + 1)
  | .n x => F[x]?.getD 0

/-- the list has an item with a lookahead set that contains the given one -/
def hasItem (L : List Item) (p d la : Nat) : Bool := L.any fun j => j.p == p && j.d == d && sub la j.la

/-- every production of `x` is in the state, with these lookaheads -/
def hasRules (L : List Item) (x la : Nat) : List Rule → Nat → Bool
  | [], _ => true
  | r :: rs, q => (r.lhs != x || hasItem L q 0 la) && hasRules L x la rs (q + 1)

def checkItem (G : List Rule) (F : List Nat) (S : List State) (st : State) (i : Item) : Bool :=
  match G[i.p]? with
  | none => false
  | some r =>
    match r.rhs.drop i.d with
    | [] => i.d == r.rhs.length &&
        (i.p != 0 || i.la == 1) &&
        st.items.all fun j => !complete? G j || j.p == i.p || j.la &&& i.la == 0
    | X :: rest =>
      (match st.next.lookup X with
        | some s' => s' != 0 && hasItem (itemsOf S s') i.p (i.d + 1) i.la
        | none => false) &&
      match X with
      | .t a => st.items.all fun j => !complete? G j || !j.la.testBit (a + 1)
      | .n x => hasRules st.items x (match rest with | [] => i.la | Y :: _ => firstOf F Y) G 0

/-- items with the dot at the left are there because of an earlier item -/
def checkBecause (G : List Rule) : List Item → List Item → Bool
  | _, [] => true
  | seen, i :: L =>
    (i.d != 0 || i.p == 0 || match G[i.p]? with
      | none => false
      | some r => seen.any fun j => match G[j.p]? with
        | none => false
        | some r' => r'.rhs[j.d]? == some (.n r.lhs)) && checkBecause G (seen ++ [i]) L

def checkNext (G : List Rule) (S : List State) (st : State) (X : Sym) (s' : Nat) : Bool :=
  (st.items.any fun i => match G[i.p]? with | none => false | some r => r.rhs[i.d]? == some X) &&
  (itemsOf S s').all fun j => j.d == 0 ||
    (st.items.any fun i => i.p == j.p && i.d + 1 == j.d) && match G[j.p]? with
      | none => false
      | some r => r.rhs[j.d - 1]? == some X

def checkState (G : List Rule) (F : List Nat) (S : List State) (s : Nat) (st : State) : Bool :=
  st.items.all (checkItem G F S st) && checkBecause G [] st.items &&
  st.next.all (fun t => checkNext G S st t.1 t.2) &&
  st.items.all fun i => if s == 0 then i.d == 0 else !(i.p == 0 && i.d == 0)

def checkStates (G : List Rule) (F : List Nat) (S : List State) : Nat → List State → Bool
  | _, [] => true
  | s, st :: rest => checkState G F S s st && checkStates G F S (s + 1) rest

def checkStart (S : List State) : Bool := hasItem (itemsOf S 0) 0 0 1

/-- the sets of first terminals are closed under the productions; no production is empty -/
def checkFirst (G : List Rule) (F : List Nat) : Bool := G.all fun r =>
  match r.rhs with
  | [] => false
  | X :: _ => sub (firstOf F X) (F[r.lhs]?.getD 0)

/-- nonterminals found productive one after the other, by the productions listed -/
def productive (G : List Rule) : List Nat → List Nat → List Nat
  | acc, [] => acc
  | acc, p :: ps =>
    match G[p]? with
    | some r => if r.rhs.all fun X => match X with | .t _ => true | .n x => acc.contains x
      then productive G (r.lhs :: acc) ps else productive G acc ps
    | none => productive G acc ps

/-- the conditions on the grammar, `Tidy` -/
def checkTidy (G : List Rule) (P : Nat) (order ranks : List Nat) (R : Nat) : Bool :=
  match G with
  | [] => false
  | ⟨S', rhs⟩ :: rest => rhs == [.n P] &&
    (G.all fun r => !r.rhs.contains (.n S')) && (rest.all fun r => r.lhs != S') &&
    (G.all fun r => !r.rhs.isEmpty) &&
    (let acc := productive G [] order
     G.all fun r => r.rhs.all fun X => match X with | .t _ => true | .n x => acc.contains x) &&
    (G.all fun r => match r.rhs with
      | [.t _] => decide (0 < (ranks[r.lhs]?.getD 0))
      | [.n x] => decide ((ranks[x]?.getD 0) < (ranks[r.lhs]?.getD 0))
      | _ => true) &&
    ranks.all fun k => decide (k ≤ R)

end Verif.LR
