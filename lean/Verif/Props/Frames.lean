import Verif.Proofs.Frames
import Verif.Proofs.Uses
import Verif.Proofs.Builds
import Verif.Model.TreeText
import Verif.Props.Tables
import Verif.Props.Append
import Verif.Props.Reprint
import Verif.Props.Display
import Verif.Props.Actions
/-
C76: no dead syntax.  Every phrase of every category is part of an accepted program, and every variant of the syntax
tree but one occurs in the tree of an accepted program.
-/
namespace Verif
open RV (Occurs)

/-- C76 on tokens: for every category there are tokens to put before and after, the same for all phrases, that make every
phrase a program, whose tree contains the value of the phrase. -/
theorem C76_tokens (n : NT) (hn : n.base = true) : ∃ before after : List STok, ∀ toks v, parseAs n toks = some v →
    ∃ p, parseProgram (before ++ (toks ++ after)) = some p ∧ Occurs (rv n v) (NodeProgram.rv p) := by
  refine ⟨(frameBefore n).map STok.at0, (frameAfter n).map STok.at0, fun toks v h => ?_⟩
  obtain ⟨p, d, o⟩ := frame_program n hn toks v ((C44_exact n hn toks v).1 h)
  exact ⟨p, C16_complete _ _ d, o⟩

/-- the tokens of the frames -/
def frameTokens : List Token :=
  [.scillaVersion, .number (str! "0"), .contract, .customIdentifier (str! "C"), .openParen, .closeParen, .import_,
   .identifier (str! "x"), .colon, .map, .with_, .end_, .field, .library, .type, .equals, .match_, .pipe, .doubleArrow,
   .openBrace, .closeBrace, .builtin, .accept, .leftArrow, .ampersand, .transition, .delete]

theorem frameTokens_printable : ∀ t ∈ frameTokens, Printable t := by
  intro t ht
  simp only [frameTokens, List.mem_cons, List.not_mem_nil, or_false] at ht
  have hx : Printable (.identifier (str! "x")) := ⟨⟨'x', [], rfl, by decide, by simp⟩, by decide⟩
  have hC : Printable (.customIdentifier (str! "C")) := ⟨⟨'C', [], rfl, by decide, by simp⟩, by decide, by decide⟩
  have h0 : Printable (.number (str! "0")) := ⟨[], ['0'], rfl, .inl rfl, by simp, by intro c hc; rw [List.mem_singleton.1 hc]; exact ⟨by decide, by decide⟩⟩
  rcases ht with rfl | rfl | rfl | rfl | rfl | rfl | rfl | rfl | rfl | rfl | rfl | rfl | rfl | rfl | rfl | rfl | rfl | rfl |
    rfl | rfl | rfl | rfl | rfl | rfl | rfl | rfl | rfl <;> first | exact hx | exact hC | exact h0 | trivial

theorem frame_tokens (n : NT) : (∀ t ∈ frameBefore n, t ∈ frameTokens) ∧ (∀ t ∈ frameAfter n, t ∈ frameTokens) := by
  cases n <;> first | decide +kernel | exact ⟨by simp [frameBefore], by simp [frameAfter]⟩

theorem frame_no_quote (n : NT) : '"' ∉ spaced (frameAfter n) := by
  intro h
  simp only [spaced, List.mem_flatMap] at h
  obtain ⟨t, ht, h⟩ := h
  have : ∀ t ∈ frameTokens, '"' ∉ t.text ++ [' '] := by decide +kernel
  exact this t ((frame_tokens n).2 t ht) h

theorem lexToks_spaced (U : CharClass) (w : List Token) (h : ∀ t ∈ w, Printable t) (q : Str) :
    lexToks U (spaced w ++ q) = (lexToks U q).map (w ++ ·) := by
  have hs : Layout [' '] := .white _ _ (.inl rfl) .nil
  induction w with
  | nil => simp [spaced]
  | cons t w ih =>
    have e : spaced (t :: w) ++ q = t.text ++ ([' '] ++ (spaced w ++ q)) := by simp [spaced]
    rw [e, lexToks_printable U (h t (by simp)) (C10_layout_separates _ _ _ hs (by simp)), lexToks_layout U hs,
      ih (fun t ht => h t (by simp [ht]))]
    cases lexToks U q <;> rfl

theorem at0_strip (w : List STok) (a : List Token) (h : w.map (·.tok) = a) : w.map STok.strip = a.map STok.at0 := by
  subst h; rw [List.map_map]; rfl

/-- C76 on documents: for every category there is a text to put before and one to put after, the same for all, that make
every text of the category (one that ends in a blank, a line end or a comment) an accepted program, whose tree contains
the value of the text (up to positions). -/
theorem C76_documents (n : NT) (hn : n.base = true) : ∃ before after : Str, ∀ (U : CharClass) (text lay : Str)
    (ks : List Token) (sts : List STok) (v : Val n), Boundary U text ks lay → Layout lay → lay ≠ [] →
    lexDoc U (text ++ lay) = some sts → parseAs n sts = some v →
    ∃ all p, lexDoc U (before ++ (text ++ (lay ++ after))) = some all ∧ parseProgram all = some p ∧
      Occurs (rv n (stripV n v)) (NodeProgram.rv p.strip) := by
  refine ⟨spaced (frameBefore n), spaced (frameAfter n), fun U text lay ks sts v hb hl hne hlex hp => ?_⟩
  have hA : ∀ t ∈ frameAfter n, Printable t := fun t ht => frameTokens_printable t ((frame_tokens n).2 t ht)
  have hB : ∀ t ∈ frameBefore n, Printable t := fun t ht => frameTokens_printable t ((frame_tokens n).1 t ht)
  have hafter : lexToks U (spaced (frameAfter n)) = some (frameAfter n) := by
    have := lexToks_spaced U _ hA []
    rw [List.append_nil, lexToks_nil] at this
    simpa using this
  obtain ⟨h1, h2⟩ := lex_append U hb hl hne (.inl (fun h => absurd h (frame_no_quote n))) hafter
  have h3 := lexToks_spaced U _ hB (text ++ (lay ++ spaced (frameAfter n)))
  rw [h2, Option.map_some] at h3
  obtain ⟨all, ha, ea⟩ := lexDoc_of_toks h3
  have eks : sts.map (·.tok) = ks := by simpa [lexToks, hlex] using h1
  have d := ((C44_exact n hn sts v).1 hp).strip
  obtain ⟨p0, d0, o0⟩ := frame_program n hn _ _ d
  have ew : (frameBefore n).map STok.at0 ++ (sts.map STok.strip ++ (frameAfter n).map STok.at0) = all.map STok.strip := by
    rw [at0_strip all _ ea, at0_strip sts _ eks, List.map_append, List.map_append]
  rw [ew] at d0
  have hp0 := C16_complete _ _ d0
  have hidem : (all.map STok.strip).map STok.strip = all.map STok.strip := by rw [List.map_map]; rfl
  have hstrip : p0.strip = p0 := by
    have h := d0.strip
    rw [hidem] at h
    have h := C16_complete _ _ h
    rw [hp0] at h
    exact (Option.some.inj h).symm
  have hbare : bare (all.map STok.strip) = bare all := by simp only [bare, List.map_map]; rfl
  rcases C18_parse _ _ hbare with ⟨h, _⟩ | ⟨q, p, hq, hp, e⟩
  · rw [hp0] at h; simp at h
  · rw [hp0] at hq
    obtain rfl := Option.some.inj hq
    refine ⟨all, p, ha, hp, ?_⟩
    rw [← e, hstrip]
    exact o0

mutual
/-- the variants in a value -/
def RV.paths : RV → List Str
  | .str _ => []
  | .pos _ => []
  | .vec l => RV.pathsL l
  | .node p _ vs => p :: RV.pathsL vs
def RV.pathsL : List RV → List Str
  | [] => []
  | v :: l => v.paths ++ RV.pathsL l
end

mutual
theorem uses_of_paths : ∀ (v : RV) (p : Str), p ∈ v.paths → v.Uses p
  | .str _, p, h => by simp [RV.paths] at h
  | .pos _, p, h => by simp [RV.paths] at h
  | .vec l, p, h => by
    obtain ⟨v, hv, fs, vs, ho⟩ := uses_of_pathsL l p (by simpa [RV.paths] using h)
    exact ⟨fs, vs, .vec hv ho⟩
  | .node q gs us, p, h => by
    rw [RV.paths, List.mem_cons] at h
    by_cases e : p = q
    · subst e; exact ⟨gs, us, .refl⟩
    · obtain ⟨v, hv, fs, vs, ho⟩ := uses_of_pathsL us p (h.resolve_left e)
      exact ⟨fs, vs, .node hv ho⟩
theorem uses_of_pathsL : ∀ (l : List RV) (p : Str), p ∈ RV.pathsL l → ∃ v ∈ l, v.Uses p
  | [], p, h => by simp [RV.pathsL] at h
  | v :: l, p, h => by
    rw [RV.pathsL, List.mem_append] at h
    rcases h with h | h
    · exact ⟨v, by simp, uses_of_paths v p h⟩
    · obtain ⟨u, hu, h⟩ := uses_of_pathsL l p h
      exact ⟨u, by simp [hu], h⟩
end

/-- a document with all there is -/
def allSyntaxDoc : Str :=
  str! "scilla_version 0\n" ++
  str! "import A B as C\n" ++
  str! "library L\n" ++
  str! "type T\n" ++
  str! "type U = | V | W of Int32 (A -> B) 'A Map K V ByStr20 with end\n" ++
  str! "let a : forall 'A. 'A = fun (x : Int32) => tfun 'A => let y : Map (A.B) (Option Int32) = @f Int32 in\n" ++
  str! "match x with | _ => Some {Int32} y | z => f x | Pair _ b A (B.C D) => builtin add {} a b end\n" ++
  str! "let b = {m : x; _n : Int32 5; A.z : \"s\"; k : 0x12; j : Emp Int32 A}\n" ++
  str! "contract X (a : Map (ByStr20 with end) (Pair (Map Int32 Int32) A Map A A), b : ByStr20 with contract field q : ByStr end,\n" ++
  str! "c : Map Z with end ByStr20 with end, d : (0x12.A), e : Map A Map A A, f : Event) with x =>\n" ++
  str! "field g : Map (A) A = Uint32 5\n" ++
  str! "transition T (x : A)\n" ++
  str! "x <- y; x <- & A(a); x <- & a.b; x <- & _a._b; x <- & a.b[k]; x <- & exists a.b[k]; x <- & a as ByStr20 with library end;\n" ++
  str! "x := y; x = y; x <- y[k]; x <- exists y[k]; x[k] := y; delete x[k]; accept; send x; event x; throw; throw x;\n" ++
  str! "match x with | A => accept end; P x; p x; forall x P\n" ++
  str! "end\n" ++
  str! "procedure p () end"

/-- C76: every variant and structure of the syntax tree occurs in the tree of some accepted document, except one:
`NodeByteStr::Constant` never occurs. -/
theorem C76_variants (U : CharClass) (path : Str) :
    (∃ doc toks p, lexDoc U doc = some toks ∧ parseProgram toks = some p ∧ (NodeProgram.rv p).Uses path) ↔
    path ∈ variantPaths ∧ path ≠ str! "NodeByteStr::Constant" := by
  constructor
  · rintro ⟨doc, toks, p, -, hp, hu⟩
    have hb := (C62_program toks _).2 ⟨p, hp, rfl⟩
    have h := hb.uses (toks, _) (List.Mem.head _) path hu
    have : ∀ q ∈ actionPaths, q ∈ variantPaths ∧ q ≠ str! "NodeByteStr::Constant" := by decide +kernel
    exact this path h
  · intro h
    have hU : lexDoc U allSyntaxDoc = lexDoc demoU allSyntaxDoc :=
      (C56_ascii { demoEnv with chars := U } demoU allSyntaxDoc (by unfold Ascii; decide +kernel)).1
    have hk : ∃ toks p, lexDoc demoU allSyntaxDoc = some toks ∧ parseProgram toks = some p ∧
        ∀ q ∈ variantPaths, q ≠ str! "NodeByteStr::Constant" → q ∈ (NodeProgram.rv p).paths := by
      have : ((lexDoc demoU allSyntaxDoc).bind parseProgram).any (fun p => variantPaths.all fun q =>
          q == str! "NodeByteStr::Constant" || (NodeProgram.rv p).paths.contains q) = true := by decide +kernel
      cases h1 : lexDoc demoU allSyntaxDoc with
      | none => rw [h1] at this; simp at this
      | some toks =>
        cases h2 : parseProgram toks with
        | none => rw [h1, Option.bind_some, h2] at this; simp at this
        | some p =>
          rw [h1, Option.bind_some, h2] at this
          refine ⟨toks, p, rfl, h2, fun q hq hne => ?_⟩
          simp only [Option.any_some, List.all_eq_true] at this
          have := this q hq
          simpa [hne] using this
    obtain ⟨toks, p, h1, h2, h3⟩ := hk
    exact ⟨allSyntaxDoc, toks, p, hU.trans h1, h2, uses_of_paths _ _ (h3 path h.1 h.2)⟩

/-- The premises of `C76_documents` are met by a type. -/
theorem C76_witness : ∃ ks sts v, Boundary demoU (str! "Map Int32 (Pair A B)") ks [' '] ∧ Layout [' '] ∧
    lexDoc demoU (str! "Map Int32 (Pair A B) ") = some sts ∧ parseAs .scillaType sts = some v ∧ sts.length = 7 := by
  obtain ⟨ks, hb⟩ := boundary_of_callsN (U := demoU) (pre := str! "Map Int32 (Pair A B)") (post := [' ']) 7 (by decide +kernel)
  have : ((lexDoc demoU (str! "Map Int32 (Pair A B) ")).bind fun sts =>
      if sts.length = 7 then parseAs .scillaType sts else none).isSome = true := by decide +kernel
  cases h1 : lexDoc demoU (str! "Map Int32 (Pair A B) ") with
  | none => rw [h1] at this; simp at this
  | some sts =>
    rw [h1, Option.bind_some] at this
    by_cases h7 : sts.length = 7
    · rw [if_pos h7, Option.isSome_iff_exists] at this
      obtain ⟨v, hv⟩ := this
      exact ⟨ks, sts, v, hb, .white _ _ (.inl rfl) .nil, rfl, hv, h7⟩
    · rw [if_neg h7] at this; simp at this

end Verif
