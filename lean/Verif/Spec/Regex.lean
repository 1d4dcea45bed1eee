import Verif.Model.Token
/-
Regular expressions, as the `regex` crate documents them: the syntax (only what src/parser/lexer.rs 606-620 uses), what
language an expression denotes, and which match `Regex::find` reports (leftmost-first: of all matches at the leftmost
position the one a backtracking matcher would find first).

The lexer compiles eight expressions; they are kept here as the texts in the source (`lexerRegexes`), and `Rx.parse`
reads them.  `Model/Lexer` has a hand-written matcher for each; C69 says that these agree with this file.
-/
namespace Verif

/-- a regular expression -/
inductive Rx where
  | eps
  /-- a class of characters `[…]`, `[^…]` as a list of ranges; a literal is a class with one range of one character -/
  | cls (negated : Bool) (ranges : List (Char × Char))
  /-- `.`: any character but `\n` -/
  | dot
  | seq (a b : Rx)
  /-- `a|b` -/
  | alt (a b : Rx)
  /-- `a*` (greedy) -/
  | star (a : Rx)
  /-- `a?` (greedy) -/
  | opt (a : Rx)
deriving DecidableEq, Repr

/-- `a+` -/
def Rx.plus (a : Rx) : Rx := .seq a (.star a)

/-- one literal character -/
def Rx.lit (c : Char) : Rx := .cls false [(c, c)]

/-- Whether a character is in a class. -/
def inClass (negated : Bool) (ranges : List (Char × Char)) (c : Char) : Bool :=
  ranges.any (fun r => r.1.toNat ≤ c.toNat && c.toNat ≤ r.2.toNat) != negated

/-- The language of an expression. -/
inductive Rx.Lang : Rx → Str → Prop
  | eps : Rx.Lang .eps []
  | cls (n : Bool) (rs : List (Char × Char)) (c : Char) (h : inClass n rs c = true) : Rx.Lang (.cls n rs) [c]
  | dot (c : Char) (h : c ≠ '\n') : Rx.Lang .dot [c]
  | seq (a b : Rx) (x y : Str) (hx : Rx.Lang a x) (hy : Rx.Lang b y) : Rx.Lang (.seq a b) (x ++ y)
  | altL (a b : Rx) (x : Str) (hx : Rx.Lang a x) : Rx.Lang (.alt a b) x
  | altR (a b : Rx) (x : Str) (hx : Rx.Lang b x) : Rx.Lang (.alt a b) x
  | starNil (a : Rx) : Rx.Lang (.star a) []
  | starCons (a : Rx) (x y : Str) (hx : Rx.Lang a x) (hy : Rx.Lang (.star a) y) : Rx.Lang (.star a) (x ++ y)
  | optNil (a : Rx) : Rx.Lang (.opt a) []
  | optSome (a : Rx) (x : Str) (hx : Rx.Lang a x) : Rx.Lang (.opt a) x

/-- The matches of an expression at the start of a text, each given by the text after it, in the order in which a
backtracking matcher tries them: the left alternative first, one more iteration before none, an optional part before its
absence.  An iteration of `*` that consumes nothing is not continued. -/
def Rx.tries : Rx → Str → List Str
  | .eps, s => [s]
  | .cls _ _, [] => []
  | .cls n rs, c :: s => if inClass n rs c then [s] else []
  | .dot, [] => []
  | .dot, c :: s => if c = '\n' then [] else [s]
  | .seq a b, s => (a.tries s).flatMap b.tries
  | .alt a b, s => a.tries s ++ b.tries s
  | .star a, s => loop a.tries s.length s
  | .opt a, s => a.tries s ++ [s]
where
  /-- at most `n` iterations; a text of length `n` allows no more -/
  loop (f : Str → List Str) : Nat → Str → List Str
    | 0, s => [s]
    | n + 1, s => ((f s).filter (fun r => r.length < s.length)).flatMap (loop f n) ++ [s]

/-- `Regex::find` for an expression that begins with `^`: the part of the text that the preferred match covers. -/
def Rx.find (r : Rx) (s : Str) : Option Str := (r.tries s).head?.map fun rest => s.take (s.length - rest.length)

/-! ### Reading the syntax -/

/-- one character of a class or a literal, `\` escapes the next character -/
def Rx.readChar : Str → Option (Char × Str)
  | '\\' :: c :: s => some (c, s)
  | c :: s => some (c, s)
  | [] => none

/-- the inside of `[…]` up to the bracket -/
def Rx.readRanges : Nat → Str → Option (List (Char × Char) × Str)
  | 0, _ => none
  | _ + 1, ']' :: s => some ([], s)
  | n + 1, s =>
    match readChar s with
    | none => none
    | some (a, '-' :: ']' :: s') => some ([(a, a), ('-', '-')], s')
    | some (a, '-' :: s') =>
      match readChar s' with
      | none => none
      | some (b, s'') => (readRanges n s'').map fun (l, t) => ((a, b) :: l, t)
    | some (a, s') => (readRanges n s').map fun (l, t) => ((a, a) :: l, t)

mutual
/-- alternatives separated by `|` -/
def Rx.readAlt : Nat → Str → Option (Rx × Str)
  | 0, _ => none
  | n + 1, s =>
    match Rx.readSeq n s with
    | none => none
    | some (a, '|' :: s') => (Rx.readAlt n s').map fun (b, t) => (.alt a b, t)
    | some (a, s') => some (a, s')
/-- a sequence of repeated atoms, up to `|`, `)` or the end -/
def Rx.readSeq : Nat → Str → Option (Rx × Str)
  | 0, _ => none
  | _ + 1, [] => some (.eps, [])
  | _ + 1, '|' :: s => some (.eps, '|' :: s)
  | _ + 1, ')' :: s => some (.eps, ')' :: s)
  | n + 1, s =>
    match Rx.readAtom n s with
    | none => none
    | some (a, '*' :: s') => (Rx.readSeq n s').map fun (b, t) => (.seq (.star a) b, t)
    | some (a, '+' :: s') => (Rx.readSeq n s').map fun (b, t) => (.seq a.plus b, t)
    | some (a, '?' :: s') => (Rx.readSeq n s').map fun (b, t) => (.seq (.opt a) b, t)
    | some (a, s') => (Rx.readSeq n s').map fun (b, t) => (.seq a b, t)
/-- `(…)`, `(?:…)`, `[…]`, `[^…]`, `.`, or a literal -/
def Rx.readAtom : Nat → Str → Option (Rx × Str)
  | 0, _ => none
  | n + 1, '(' :: '?' :: ':' :: s =>
    match Rx.readAlt n s with
    | some (a, ')' :: s') => some (a, s')
    | _ => none
  | n + 1, '(' :: s =>
    match Rx.readAlt n s with
    | some (a, ')' :: s') => some (a, s')
    | _ => none
  | n + 1, '[' :: '^' :: s => (Rx.readRanges n s).map fun (l, t) => (.cls true l, t)
  | n + 1, '[' :: s => (Rx.readRanges n s).map fun (l, t) => (.cls false l, t)
  | _ + 1, '.' :: s => some (.dot, s)
  | _ + 1, s => (Rx.readChar s).map fun (c, t) => (.lit c, t)
end

/-- An expression with `^` in front (all of the lexer's are), read completely. -/
def Rx.parse : Str → Option Rx
  | '^' :: s =>
    match Rx.readAlt (4 * s.length + 8) s with
    | some (r, []) => some r
    | _ => none
  | _ => none

/-- `Regex::new(text).unwrap().find(s)` for an anchored expression, `none` also if the text is no expression. -/
def regexFind (text : Str) (s : Str) : Option Str := (Rx.parse text).bind fun r => r.find s

end Verif
