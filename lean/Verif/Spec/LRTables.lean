import Verif.Model.LR
/-
The language of a context-free grammar, and what it means for LR tables to fit a grammar.
-/
namespace Verif.LR

/-- `Der G α w`: the symbols `α` derive the terminals `w`. -/
inductive Der (G : List Rule) : List Sym → List Nat → Prop
  | nil : Der G [] []
  | t {a α w} : Der G α w → Der G (.t a :: α) (a :: w)
  | n {r α u w} : r ∈ G → Der G r.rhs u → Der G α w → Der G (.n r.lhs :: α) (u ++ w)

/-- Conditions on a grammar: production 0 is `S' = P`, `S'` occurs on no right side, no right side is empty, every
nonterminal derives some terminals, and there are no cycles of unit productions (`rank`, at most `R`). -/
structure Tidy (G : List Rule) (P : Nat) (rank : Nat → Nat) (R : Nat) : Prop where
  start : ∃ S, G[0]? = some ⟨S, [.n P]⟩ ∧ (∀ r ∈ G, .n S ∉ r.rhs) ∧ ∀ (p : Nat) (r : Rule), G[p]? = some r → r.lhs = S → p = 0
  noEmpty : ∀ r ∈ G, r.rhs ≠ []
  productive : ∀ r ∈ G, ∀ x, .n x ∈ r.rhs → ∃ w, Der G [.n x] w
  unitTok : ∀ r ∈ G, ∀ a, r.rhs = [.t a] → 0 < rank r.lhs
  unit : ∀ r ∈ G, ∀ x, r.rhs = [.n x] → rank x < rank r.lhs
  bound : ∀ x, rank x ≤ R

/-- The items of the states: `It s p d` means that state `s` contains production `p` with the dot after `d` symbols,
and `La s p d l` that `l` (a terminal, or `none` for the end) is one of its lookaheads. -/
structure Items where
  It : Nat → Nat → Nat → Prop
  La : Nat → Nat → Nat → Option Nat → Prop

/-- the transition of state `s` on a symbol -/
def Tables.next (T : Tables) (s : Nat) : Sym → Option Nat
  | .t a => match T.action s (some a) with | .shift s' => some s' | _ => none
  | .n x => some (T.goto s x)

/-- The tables fit the grammar: they come from sets of LR(1) items without conflicts.  The lookaheads may be larger than
necessary (as in LALR(1) and lane-table automata), and a reduction may be made without looking at the lookahead
(`reduceOnly` asks only for a complete item), as LALRPOP does in states with a single item. -/
structure Valid (G : List Rule) (T : Tables) (I : Items) : Prop where
  /-- the initial state contains the start production -/
  start : I.It 0 0 0 ∧ I.La 0 0 0 none
  /-- what may come after the dot is in the state, with the lookaheads that can follow it -/
  closure : ∀ s p d r x q r', I.It s p d → G[p]? = some r → r.rhs[d]? = some (.n x) → G[q]? = some r' → r'.lhs = x →
    I.It s q 0 ∧ (r.rhs.drop (d + 1) = [] → ∀ l, I.La s p d l → I.La s q 0 l) ∧
      ∀ a w, Der G (r.rhs.drop (d + 1)) (a :: w) → I.La s q 0 (some a)
  /-- the dot can be moved over the symbol after it -/
  next : ∀ s p d r X, I.It s p d → G[p]? = some r → r.rhs[d]? = some X → ∃ s', T.next s X = some s' ∧
    I.It s' p (d + 1) ∧ ∀ l, I.La s p d l → I.La s' p (d + 1) l
  /-- a complete production is reduced if the lookahead is among those of the item -/
  reduce : ∀ s p r l, I.It s p r.rhs.length → G[p]? = some r → I.La s p r.rhs.length l → T.action s l = .reduce p
  /-- only complete productions are reduced -/
  reduceOnly : ∀ s l p, (∃ q d, I.It s q d) → T.action s l = .reduce p → ∃ r, G[p]? = some r ∧ I.It s p r.rhs.length
  /-- only tokens after a dot are shifted -/
  shiftOnly : ∀ s l s', (∃ q d, I.It s q d) → T.action s l = .shift s' →
    ∃ a p d r, l = some a ∧ I.It s p d ∧ G[p]? = some r ∧ r.rhs[d]? = some (.t a)
  /-- an item with the dot further on comes from the previous state -/
  from_ : ∀ s p d r X s' q e, I.It s p d → G[p]? = some r → r.rhs[d]? = some X → T.next s X = some s' →
    I.It s' q (e + 1) → I.It s q e ∧ ∃ r', G[q]? = some r' ∧ r'.rhs[e]? = some X
  /-- nothing leads back to the initial state -/
  notBack : ∀ s p d r X, I.It s p d → G[p]? = some r → r.rhs[d]? = some X → T.next s X ≠ some 0
  initial : ∀ p d, I.It 0 p d → d = 0
  /-- the start production begins in the initial state only -/
  startOnly : ∀ s, I.It s 0 0 → s = 0
  /-- an item with the dot at the left is the start production, or there for the sake of another item -/
  because : ∃ height : Nat → Nat → Nat → Nat, ∀ s q r', I.It s q 0 → G[q]? = some r' → q = 0 ∨
    ∃ p d r, I.It s p d ∧ G[p]? = some r ∧ r.rhs[d]? = some (.n r'.lhs) ∧ height s p d < height s q 0
  /-- items are of productions -/
  rule : ∀ s p d, I.It s p d → ∃ r, G[p]? = some r ∧ d ≤ r.rhs.length
  /-- no reduction under a token leads to the start production: there is a set of nonterminals, among them the
  start symbol, whose productions are reduced under a token only if they end with one of the set; and where one of
  the set has been read, a production is complete and is reduced at the end of the input -/
  final : ∃ fin : Nat → Prop, (∀ r, G[0]? = some r → fin r.lhs) ∧
    (∀ s a p r, I.It s p r.rhs.length → G[p]? = some r → fin r.lhs → T.action s (some a) = .reduce p →
      ∃ α x, r.rhs = α ++ [.n x] ∧ fin x) ∧
    ∀ s p d r x, I.It s p (d + 1) → G[p]? = some r → r.rhs[d]? = some (.n x) → fin x → T.action s none = .reduce p

end Verif.LR
