import Verif.Proofs.Sources
import Verif.Spec.Occurs
import Verif.Props.Actions
import Verif.Props.Machine
/-
C80 — nothing in a syntax tree is invented: every string in it is the text of a token (or empty), every position the start
or the end of a token; so in a document, every string is a piece of the document, and every position lies in it.
-/
namespace Verif

/-- every tree that any of the parsers returns -/
theorem C80_tree (x : GName) (toks : List STok) (v : Val x.nt) (h : parseAs x.nt toks = some v) : FromTokens toks (rv x.nt v) := by
  have hb := (C62_parsers x toks _).2 ⟨v, h, rfl⟩
  exact hb.good.from _ (List.mem_singleton.2 rfl)

theorem FromTokens.parts {w : List STok} {v : RV} (h : FromTokens w v) {x : RV} (ho : RV.Occurs x v) :
    FromTokens w x ∨ ∃ t ∈ w, x = .pos t.start ∨ x = .pos t.stop := by
  induction ho with
  | refl => exact .inl h
  | vec hm _ ih =>
    cases h with
    | vec hl => exact ih (hl _ hm)
  | node hm ho ih =>
    cases h with
    | node _ hl => exact ih (hl _ hm)
    | @located u t t' h1 h2 h3 =>
      simp only [List.mem_cons, List.not_mem_nil, or_false] at hm
      rcases hm with rfl | rfl | rfl
      · exact ih h1
      · cases ho; exact .inr ⟨t, h2, .inl rfl⟩
      · cases ho; exact .inr ⟨t', h3, .inr rfl⟩

/-- the strings -/
theorem C80_strings (x : GName) (toks : List STok) (v : Val x.nt) (h : parseAs x.nt toks = some v) (s : Str)
    (hs : RV.Occurs (.str s) (rv x.nt v)) : s = [] ∨ ∃ t ∈ toks, s = t.tok.text := by
  rcases (C80_tree x toks v h).parts hs with h | ⟨t, _, e | e⟩
  · cases h with
    | text h => exact .inr ⟨_, h, rfl⟩
    | empty => exact .inl rfl
  · cases e
  · cases e

/-- the positions -/
theorem C80_positions (x : GName) (toks : List STok) (v : Val x.nt) (h : parseAs x.nt toks = some v) (p : Pos)
    (hp : RV.Occurs (.pos p) (rv x.nt v)) : ∃ t ∈ toks, p = t.start ∨ p = t.stop := by
  rcases (C80_tree x toks v h).parts hp with h | ⟨t, ht, e | e⟩
  · cases h
  · cases e; exact ⟨t, ht, .inl rfl⟩
  · cases e; exact ⟨t, ht, .inr rfl⟩

/-- the spans: each starts where a token starts and ends where a token ends -/
theorem C80_spans (x : GName) (toks : List STok) (v : Val x.nt) (h : parseAs x.nt toks = some v) (fields : List Str) (args : List RV)
    (hp : RV.Occurs (.node (str! "WithMetaData") fields args) (rv x.nt v)) :
    ∃ node t u, t ∈ toks ∧ u ∈ toks ∧ args = [node, .pos t.start, .pos u.stop] := by
  rcases (C80_tree x toks v h).parts hp with h | ⟨t, ht, e | e⟩
  · cases h with
    | located _ h2 h3 => exact ⟨_, _, _, h2, h3, rfl⟩
    | node hn _ => exact absurd rfl hn
  · cases e
  · cases e

/-- in a document: the strings are pieces of it, the positions lie in it and are valid on any machine that can hold it -/
theorem C80_document (U : CharClass) (doc : Str) (toks : List STok) (hl : lexDoc U doc = some toks) (x : GName) (v : Val x.nt)
    (h : parseAs x.nt toks = some v) :
    (∀ s, RV.Occurs (.str s) (rv x.nt v) → ∃ pre post, doc = pre ++ s ++ post) ∧
    (∀ p, RV.Occurs (.pos p) (rv x.nt v) → p.position ≤ bytes doc ∧ p.line ≤ bytes doc ∧ p.column ≤ bytes doc ∧
      ∀ W, bytes doc < (W - 1) / 2 → p.isValid W = true) := by
  have hy := yielded_of_lexDoc hl
  constructor
  · intro s hs
    rcases C80_strings x toks v h s hs with rfl | ⟨t, ht, rfl⟩
    · exact ⟨[], doc, rfl⟩
    · have hb : x.nt.base = true := by cases x <;> rfl
      have hu := ((C44_exact x.nt hb toks v).1 h).usable t ht
      obtain ⟨pre, post, e, _⟩ := C05_text_is_slice U doc t (by rw [hy]; exact ht) (by intro e; rw [e] at hu; cases hu)
      exact ⟨pre, post, e⟩
  · intro p hp
    obtain ⟨t, ht, e⟩ := C80_positions x toks v h p hp
    have hm : t ∈ yielded U doc := by rw [hy]; exact ht
    obtain ⟨h1, h2, h3, h4, h5, h6⟩ := C73_bounded U doc t hm
    rcases e with rfl | rfl
    · exact ⟨by omega, by omega, by omega, fun W hW => (C73_valid W U doc hW t hm).1⟩
    · exact ⟨by omega, by omega, by omega, fun W hW => (C73_valid W U doc hW t hm).2⟩

/-! ### A concrete case -/

mutual
/-- all strings in a value, in order -/
def RV.strings : RV → List Str
  | .str s => [s]
  | .vec l => RV.stringsL l
  | .node _ _ l => RV.stringsL l
  | .pos _ => []
def RV.stringsL : List RV → List Str
  | [] => []
  | v :: l => v.strings ++ RV.stringsL l
end

mutual
theorem RV.occurs_of_strings (s : Str) : (v : RV) → s ∈ v.strings → RV.Occurs (.str s) v
  | .str s', h => by simp only [RV.strings, List.mem_singleton] at h; subst h; exact .refl
  | .pos _, h => by cases h
  | .vec l, h => by
    obtain ⟨v, hv, ho⟩ := RV.occurs_of_stringsL s l h
    exact .vec hv ho
  | .node _ _ l, h => by
    obtain ⟨v, hv, ho⟩ := RV.occurs_of_stringsL s l h
    exact .node hv ho
theorem RV.occurs_of_stringsL (s : Str) : (l : List RV) → s ∈ RV.stringsL l → ∃ v ∈ l, RV.Occurs (.str s) v
  | [], h => by cases h
  | v :: l, h => by
    rcases List.mem_append.1 h with h | h
    · exact ⟨v, by simp, RV.occurs_of_strings s v h⟩
    · obtain ⟨u, hu, ho⟩ := RV.occurs_of_stringsL s l h
      exact ⟨u, by simp [hu], ho⟩
end

def addressDoc : Str := str! "ByStr20 with contract field f : Uint32 end"

/-- An address type in a document: the strings of its tree are the texts of four of its eight tokens, two of which (`contract`
and `f`) are named in the tree although the file writes the first out in an action. -/
theorem C80_witness : ∃ toks v, lexDoc demoU addressDoc = some toks ∧ toks.length = 8 ∧
    parseAs GName.AddressType.nt toks = some v ∧
    (rv GName.AddressType.nt v).strings = [str! "ByStr20", str! "contract", str! "f", str! "Uint32"] ∧
    RV.Occurs (.str (str! "contract")) (rv GName.AddressType.nt v) := by
  have h : ((lexDoc demoU addressDoc).bind fun toks => (parseAs GName.AddressType.nt toks).map fun v =>
      (toks.length, (rv GName.AddressType.nt v).strings)) = some (8, [str! "ByStr20", str! "contract", str! "f", str! "Uint32"]) := by
    decide +kernel
  obtain ⟨toks, h1, h2⟩ := Option.bind_eq_some_iff.1 h
  obtain ⟨v, h3, h4⟩ := Option.map_eq_some_iff.1 h2
  simp only [Prod.mk.injEq] at h4
  exact ⟨toks, v, h1, h4.1, h3, h4.2, RV.occurs_of_strings _ _ (by rw [h4.2]; decide)⟩

end Verif
