import Verif.Model.Basic
/-
UTF-8 (RFC 3629; The Unicode Standard, section 3.9): how characters are encoded, which sequences of bytes are well
formed, and what `str::is_char_boundary` of Rust looks at.  Bytes are numbers below 256.

The model works with lists of characters and counts their bytes; C70 relates that to the bytes themselves.
-/
namespace Verif

/-- the bytes of a character -/
def utf8 (c : Char) : List Nat :=
  let n := c.toNat
  if n < 0x80 then [n]
  else if n < 0x800 then [0xC0 + n / 64, 0x80 + n % 64]
  else if n < 0x10000 then [0xE0 + n / 4096, 0x80 + n / 64 % 64, 0x80 + n % 64]
  else [0xF0 + n / 262144, 0x80 + n / 4096 % 64, 0x80 + n / 64 % 64, 0x80 + n % 64]

/-- the bytes of a text -/
def utf8s (s : Str) : List Nat := s.flatMap utf8

/-- Well-formed sequences of bytes: The Unicode Standard, table 3-7. -/
inductive Utf8Ok : List Nat → Prop
  | nil : Utf8Ok []
  | one {a : Nat} {bs : List Nat} : a ≤ 0x7F → Utf8Ok bs → Utf8Ok (a :: bs)
  | two {a b : Nat} {bs : List Nat} : 0xC2 ≤ a ∧ a ≤ 0xDF → 0x80 ≤ b ∧ b ≤ 0xBF → Utf8Ok bs →
      Utf8Ok (a :: b :: bs)
  | threeE0 {b c : Nat} {bs : List Nat} : 0xA0 ≤ b ∧ b ≤ 0xBF → 0x80 ≤ c ∧ c ≤ 0xBF → Utf8Ok bs →
      Utf8Ok (0xE0 :: b :: c :: bs)
  | three {a b c : Nat} {bs : List Nat} : (0xE1 ≤ a ∧ a ≤ 0xEC) ∨ (0xEE ≤ a ∧ a ≤ 0xEF) → 0x80 ≤ b ∧ b ≤ 0xBF →
      0x80 ≤ c ∧ c ≤ 0xBF → Utf8Ok bs → Utf8Ok (a :: b :: c :: bs)
  | threeED {b c : Nat} {bs : List Nat} : 0x80 ≤ b ∧ b ≤ 0x9F → 0x80 ≤ c ∧ c ≤ 0xBF → Utf8Ok bs →
      Utf8Ok (0xED :: b :: c :: bs)
  | fourF0 {b c d : Nat} {bs : List Nat} : 0x90 ≤ b ∧ b ≤ 0xBF → 0x80 ≤ c ∧ c ≤ 0xBF → 0x80 ≤ d ∧ d ≤ 0xBF →
      Utf8Ok bs → Utf8Ok (0xF0 :: b :: c :: d :: bs)
  | four {a b c d : Nat} {bs : List Nat} : 0xF1 ≤ a ∧ a ≤ 0xF3 → 0x80 ≤ b ∧ b ≤ 0xBF → 0x80 ≤ c ∧ c ≤ 0xBF →
      0x80 ≤ d ∧ d ≤ 0xBF → Utf8Ok bs → Utf8Ok (a :: b :: c :: d :: bs)
  | fourF4 {b c d : Nat} {bs : List Nat} : 0x80 ≤ b ∧ b ≤ 0x8F → 0x80 ≤ c ∧ c ≤ 0xBF → 0x80 ≤ d ∧ d ≤ 0xBF →
      Utf8Ok bs → Utf8Ok (0xF4 :: b :: c :: d :: bs)

/-- `str::is_char_boundary(n)`: the start, the end, or the index of a byte that is not a continuation byte
(`0b10xxxxxx`).  Slicing `&s[..n]` panics otherwise. -/
def CharBoundary (bs : List Nat) (n : Nat) : Prop :=
  n = 0 ∨ n = bs.length ∨ ∃ b, bs[n]? = some b ∧ ¬ (0x80 ≤ b ∧ b ≤ 0xBF)

/-- Comparing bytes as Rust compares `[u8]` (and so `str`): at the first difference, or by length. -/
def cmpBytes : List Nat → List Nat → Ordering
  | [], [] => .eq
  | [], _ :: _ => .lt
  | _ :: _, [] => .gt
  | a :: s, b :: t => if a < b then .lt else if b < a then .gt else cmpBytes s t

end Verif
