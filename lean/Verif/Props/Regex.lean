import Verif.Proofs.Regex
import Verif.Props.Parser1
/-
C69: the eight regular expressions of the lexer (src/parser/lexer.rs 606-620).
-/
namespace Verif

/-- C69: the matcher of `Spec/Regex` tries exactly the prefixes that are in the language of the expression, for every
expression and every text. -/
theorem C69_tries (r : Rx) (m rest : Str) : rest ∈ r.tries (m ++ rest) ↔ r.Lang m := by
  rw [mem_tries]
  constructor
  · rintro ⟨m', e, h⟩
    rw [List.append_left_inj] at e
    exact e ▸ h
  · exact fun h => ⟨m, rfl, h⟩

/-- C69: so it finds a match exactly if there is one, and what it finds is one. -/
theorem C69_find (r : Rx) (s : Str) :
    (∀ m, r.find s = some m → r.Lang m ∧ ∃ rest, s = m ++ rest) ∧
    (r.find s = none ↔ ∀ m rest, s = m ++ rest → ¬ r.Lang m) := by
  constructor
  · intro m h
    rw [Rx.find] at h
    cases e : r.tries s with
    | nil => rw [e] at h; cases h
    | cons rest more =>
      obtain ⟨m', hm, hl⟩ := (mem_tries r s rest).1 (by rw [e]; exact List.mem_cons_self)
      rw [e, hm] at h
      simp only [List.head?_cons, Option.map_some, Option.some.injEq, List.length_append, Nat.add_sub_cancel,
        List.take_left'] at h
      exact ⟨h ▸ hl, rest, h ▸ hm⟩
  · rw [Rx.find, Option.map_eq_none_iff, List.head?_eq_none_iff]
    constructor
    · intro h m rest e hl
      have := (mem_tries r s rest).2 ⟨m, e, hl⟩
      rw [h] at this
      cases this
    · intro h
      cases e : r.tries s with
      | nil => rfl
      | cons rest more =>
        obtain ⟨m', hm, hl⟩ := (mem_tries r s rest).1 (by rw [e]; exact List.mem_cons_self)
        exact absurd hl (h m' rest hm)

theorem regexFind_of {text : Str} {r : Rx} (h : Rx.parse text = some r) (s : Str) : regexFind text s = r.find s := by
  rw [regexFind, h]
  rfl

/-- C69: `Regex::new(r"^ByStr[0-9]+")`, line 606. -/
theorem C69_byStrWithSize (s : Str) : matchByStrSize s = regexFind (str! "^ByStr[0-9]+") s := by
  rw [regexFind_of (r := .seq (.lit 'B') (.seq (.lit 'y') (.seq (.lit 'S') (.seq (.lit 't') (.seq (.lit 'r')
    (.seq (Rx.plus (.cls false [('0', '9')])) .eps)))))) (by decide +kernel)]
  unfold matchByStrSize
  split
  · rename_i s
    simp only [Rx.lit, find_cls, class_one, find_plus, class_digit, beq_self_eq_true, if_true]
    cases s.takeWhile isDigit <;> rfl
  · rename_i hne
    symm
    match s with
    | [] => exact find_cls_nil _ _ _
    | a :: s =>
      rw [Rx.lit, find_cls, class_one]
      split
      case isFalse => rfl
      match s with
      | [] => exact congrArg _ (find_cls_nil _ _ _)
      | b :: s =>
        rw [Rx.lit, find_cls, class_one]
        split
        case isFalse => rfl
        match s with
        | [] => exact congrArg _ (congrArg _ (find_cls_nil _ _ _))
        | c :: s =>
          rw [Rx.lit, find_cls, class_one]
          split
          case isFalse => rfl
          match s with
          | [] => exact congrArg _ (congrArg _ (congrArg _ (find_cls_nil _ _ _)))
          | d :: s =>
            rw [Rx.lit, find_cls, class_one]
            split
            case isFalse => rfl
            match s with
            | [] => exact congrArg _ (congrArg _ (congrArg _ (congrArg _ (find_cls_nil _ _ _))))
            | e :: s =>
              rw [Rx.lit, find_cls, class_one]
              split
              case isFalse => rfl
              simp only [beq_iff_eq] at *
              subst_vars
              exact absurd rfl (hne s)

/-- C69: `Regex::new(r"^[+-]?[0-9]+")`, line 608. -/
theorem C69_integer (s : Str) : matchInteger s = regexFind (str! "^[+-]?[0-9]+") s := by
  rw [regexFind_of (r := .seq (.opt (.cls false [('+', '+'), ('-', '-')]))
    (.seq (Rx.plus (.cls false [('0', '9')])) .eps)) (by decide +kernel), find_opt]
  cases s with
  | nil => rw [find_cls_nil, find_plus]; rfl
  | cons c s =>
    rw [find_cls, class_sign, find_plus, find_plus, class_digit, matchInteger]
    split
    · rename_i h
      have hd : isDigit c = false := by
        simp only [Bool.or_eq_true, beq_iff_eq] at h
        rcases h with rfl | rfl <;> decide
      rw [List.takeWhile_cons, hd]
      cases s.takeWhile isDigit <;> rfl
    · rfl

/-- C69: `Regex::new(r"^0(x|X)([a-fA-F0-9][a-fA-F0-9])*")`, line 610. -/
theorem C69_hexNumber (s : Str) : matchHex s = regexFind (str! "^0(x|X)([a-fA-F0-9][a-fA-F0-9])*") s := by
  rw [regexFind_of (r := .seq (.lit '0') (.seq (.alt (.seq (.lit 'x') .eps) (.seq (.lit 'X') .eps))
    (.seq (.star (.seq (.cls false [('a', 'f'), ('A', 'F'), ('0', '9')])
      (.seq (.cls false [('a', 'f'), ('A', 'F'), ('0', '9')]) .eps))) .eps))) (by decide +kernel)]
  unfold matchHex
  split
  · rename_i x s
    rw [Rx.lit, find_cls, class_one, find_alt, Rx.lit, Rx.lit, find_seq_eps, find_seq_eps, find_cls, find_cls, class_one,
      class_one, find_hex]
    cases h1 : x == 'x' <;> cases h2 : x == 'X' <;> simp
  · rename_i hne
    symm
    match s with
    | [] => exact find_cls_nil _ _ _
    | a :: s =>
      rw [Rx.lit, find_cls, class_one]
      split
      case isFalse => rfl
      match s with
      | [] =>
        rw [find_alt, find_seq_eps, find_seq_eps]
        exact congrArg _ (congr (congrArg _ (find_cls_nil _ _ _)) (find_cls_nil _ _ _))
      | x :: s =>
        simp only [beq_iff_eq] at *
        subst_vars
        exact absurd rfl (hne x s)

/-- C69: `Regex::new(r#"^"(?:\\.|[^"])*""#)`, line 613. -/
theorem C69_stringLiteral (s : Str) : matchString s = regexFind (str! "^\"(?:\\\\.|[^\"])*\"") s := by
  rw [regexFind_of (r := .seq (.lit '"') (.seq (.star rxBody) (.seq (.lit '"') .eps))) (by decide +kernel)]
  unfold matchString
  split
  · rw [Rx.lit, find_cls, class_one]
    exact congrArg _ (find_string _).symm
  · rename_i hne
    symm
    match s with
    | [] => exact find_cls_nil _ _ _
    | a :: s =>
      rw [Rx.lit, find_cls, class_one]
      split
      case isFalse => rfl
      simp only [beq_iff_eq] at *
      subst_vars
      exact absurd rfl (hne s)

/-- C69: `Regex::new(r"^[a-z][a-zA-Z0-9_]*")`, line 615. -/
theorem C69_regularId (s : Str) : matchRegularId s = regexFind (str! "^[a-z][a-zA-Z0-9_]*") s := by
  rw [regexFind_of (r := .seq (.cls false [('a', 'z')])
    (.seq (.star (.cls false [('a', 'z'), ('A', 'Z'), ('0', '9'), ('_', '_')])) .eps)) (by decide +kernel)]
  cases s with
  | nil => exact (find_cls_nil _ _ _).symm
  | cons c s => rw [find_cls, find_star, class_lower, class_word]; rfl

/-- C69: `Regex::new(r"^['][A-Z][a-zA-Z0-9_]*")`, line 617. -/
theorem C69_templateId (s : Str) : matchTemplateId s = regexFind (str! "^['][A-Z][a-zA-Z0-9_]*") s := by
  rw [regexFind_of (r := .seq (.cls false [('\'', '\'')]) (.seq (.cls false [('A', 'Z')])
    (.seq (.star (.cls false [('a', 'z'), ('A', 'Z'), ('0', '9'), ('_', '_')])) .eps))) (by decide +kernel)]
  unfold matchTemplateId
  split
  · rw [find_cls, find_cls, find_star, class_upper, class_word, class_one]
    split <;> rfl
  · rename_i hne
    symm
    match s with
    | [] => exact find_cls_nil _ _ _
    | a :: s =>
      rw [find_cls, class_one]
      split
      case isFalse => rfl
      match s with
      | [] => exact congrArg _ (find_cls_nil _ _ _)
      | x :: s =>
        simp only [beq_iff_eq] at *
        subst_vars
        exact absurd rfl (hne x s)

/-- C69: `Regex::new(r"^[A-Z][a-zA-Z0-9_]*")`, line 619. -/
theorem C69_customId (s : Str) : matchCustomId s = regexFind (str! "^[A-Z][a-zA-Z0-9_]*") s := by
  rw [regexFind_of (r := .seq (.cls false [('A', 'Z')])
    (.seq (.star (.cls false [('a', 'z'), ('A', 'Z'), ('0', '9'), ('_', '_')])) .eps)) (by decide +kernel)]
  cases s with
  | nil => exact (find_cls_nil _ _ _).symm
  | cons c s => rw [find_cls, find_star, class_upper, class_word]; rfl

/-- C69: `Regex::new(r"^[_][a-zA-Z0-9_]*")`, line 620. -/
theorem C69_specialId (s : Str) : matchSpecialId s = regexFind (str! "^[_][a-zA-Z0-9_]*") s := by
  rw [regexFind_of (r := .seq (.cls false [('_', '_')])
    (.seq (.star (.cls false [('a', 'z'), ('A', 'Z'), ('0', '9'), ('_', '_')])) .eps)) (by decide +kernel)]
  unfold matchSpecialId
  split
  · rw [find_cls, find_star, class_word, class_one]
    rfl
  · rename_i hne
    symm
    match s with
    | [] => exact find_cls_nil _ _ _
    | a :: s =>
      rw [find_cls, class_one]
      split
      case isFalse => rfl
      simp only [beq_iff_eq] at *
      subst_vars
      exact absurd rfl (hne s)

/-- The cascade of lines 622-709 with `Regex::find` on the texts of the source. -/
def scanOtherRegex (s : Str) : Scan :=
  match regexFind (str! "^ByStr[0-9]+") s with
  | some m => .token (.byStrWithSize m) (bytes m) (bytes m - 1)
  | none =>
  if (str! "ByStr").isPrefixOf s then .token .byStr 5 4 else
  match regexFind (str! "^0(x|X)([a-fA-F0-9][a-fA-F0-9])*") s with
  | some m => .token (.hexNumber m) (bytes m) (bytes m - 1)
  | none =>
  match regexFind (str! "^[+-]?[0-9]+") s with
  | some m => .token (.number m) (bytes m) (bytes m - 1)
  | none =>
  match regexFind (str! "^\"(?:\\\\.|[^\"])*\"") s with
  | some m => .token (.stringLiteral m) (bytes m) (bytes m - 1)
  | none =>
  match regexFind (str! "^[a-z][a-zA-Z0-9_]*") s with
  | some m => .token (.identifier m) (bytes m) (bytes m - 1)
  | none =>
  match regexFind (str! "^['][A-Z][a-zA-Z0-9_]*") s with
  | some m => .token (.templateIdentifier m) (bytes m) (bytes m - 1)
  | none =>
  match regexFind (str! "^[A-Z][a-zA-Z0-9_]*") s with
  | some m => .token (.customIdentifier m) (bytes m) (bytes m - 1)
  | none =>
  match regexFind (str! "^[_][a-zA-Z0-9_]*") s with
  | some m => .token (.specialIdentifier m) (bytes m) (bytes m - 1)
  | none => .token .unknown 0 0

/-- C69: the lexer of the model is the lexer with these regular expressions. -/
theorem C69_scan (s : Str) : scanOther s = scanOtherRegex s := by
  have h : startsByStr s = (str! "ByStr").isPrefixOf s := by
    unfold startsByStr
    split
    · simp [List.isPrefixOf]
    · rename_i hne
      symm
      rw [Bool.eq_false_iff]
      intro h
      obtain ⟨t, rfl⟩ := List.isPrefixOf_iff_prefix.1 h
      exact hne t rfl
  simp only [scanOther, scanOtherRegex, regexToken, C69_byStrWithSize, C69_integer, C69_hexNumber, C69_stringLiteral,
    C69_regularId, C69_templateId, C69_customId, C69_specialId, h]
  rfl

/-- Backtracking decides: in `"a\"b"` an escaped quote is preferred to the end of the literal, although
`"a\"` is a match, too; after `0x` only whole pairs are taken. -/
theorem C69_witness :
    regexFind (str! "^\"(?:\\\\.|[^\"])*\"") (str! "\"a\\\"b\" c") = some (str! "\"a\\\"b\"") ∧
    regexFind (str! "^\"(?:\\\\.|[^\"])*\"") (str! "\"a\\\"b") = some (str! "\"a\\\"") ∧
    regexFind (str! "^0(x|X)([a-fA-F0-9][a-fA-F0-9])*") (str! "0xabc") = some (str! "0xab") ∧
    regexFind (str! "^[+-]?[0-9]+") (str! "-12x") = some (str! "-12") ∧
    regexFind (str! "^[a-z][a-zA-Z0-9_]*") (str! "X") = none := by
  decide +kernel

end Verif
