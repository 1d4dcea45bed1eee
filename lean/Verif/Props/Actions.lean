import Verif.Proofs.Builds
import Verif.Proofs.NodeValues
import Verif.Props.GrammarFile
/-
C62: the trees the parsers return are those the actions of parser.lalrpop compute.
-/
namespace Verif

/-- Every nonterminal of the file: the parser of that name returns a tree exactly if the productions of the file read the
tokens and their actions compute that tree, with all its fields, names and positions. -/
theorem C62_parsers (x : GName) (toks : List STok) (r : RV) :
    Builds [.non x] [(toks, r)] ↔ ∃ v, parseAs x.nt toks = some v ∧ r = rv x.nt v := by
  have hb : x.nt.base = true := by cases x <;> rfl
  rw [derives_iff_builds]
  exact exists_congr fun v => and_congr_left fun _ => (C44_exact x.nt hb toks v).symm

/-- whole programs -/
theorem C62_program (toks : List STok) (r : RV) :
    Builds [.non .Program] [(toks, r)] ↔ ∃ p, parseProgram toks = some p ∧ r = NodeProgram.rv p := by
  rw [C62_parsers .Program toks r]
  show (∃ v, parseAs .program toks = some v ∧ r = NodeProgram.rv v) ↔ _
  rw [C44_program]

/-- A tree as the file computes it determines the tree of the model: nothing is left out. -/
theorem C62_faithful (n : NT) (a b : Val n) (h : rv n a = rv n b) : a = b := rv_inj n a b h

/-- However the productions are applied to the tokens, the actions compute the same tree. -/
theorem C62_unique (x : GName) (toks : List STok) (r r' : RV) (h : Builds [.non x] [(toks, r)])
    (h' : Builds [.non x] [(toks, r')]) : r = r' := by
  obtain ⟨v, hv, rfl⟩ := (C62_parsers x toks r).1 h
  obtain ⟨v', hv', rfl⟩ := (C62_parsers x toks r').1 h'
  rw [hv] at hv'
  rw [Option.some.inj hv']

/-- The actions never fail: every sequence of tokens the productions generate has a tree. -/
theorem C62_total (x : GName) (toks : List STok) :
    Gen [.non x] (toks.map (·.tok)) ↔ ∃ r, Builds [.non x] [(toks, r)] := by
  rw [← C59_parsers]
  constructor
  · rintro ⟨v, hv⟩
    exact ⟨_, (C62_parsers x toks _).2 ⟨v, hv, rfl⟩⟩
  · rintro ⟨r, h⟩
    obtain ⟨v, hv, _⟩ := (C62_parsers x toks r).1 h
    exact ⟨v, hv⟩

def witnessImports : List STok :=
  [⟨⟨0, 1, 1⟩, .import_, ⟨6, 1, 7⟩⟩, ⟨⟨7, 1, 8⟩, .customIdentifier (str! "A"), ⟨8, 1, 9⟩⟩,
   ⟨⟨9, 2, 1⟩, .import_, ⟨15, 2, 7⟩⟩, ⟨⟨16, 2, 8⟩, .customIdentifier (str! "B"), ⟨17, 2, 9⟩⟩]

/-- Concrete case: two imports.  The actions compute one list of two names, which starts at the second `import`. -/
theorem C62_witness : ∃ names, Builds [.non .ImportDeclarations] [(witnessImports,
    .node (str! "WithMetaData") [str! "node", str! "start", str! "end"]
      [.node (str! "NodeImportDeclarations") [str! "import_list"] [.vec names], .pos ⟨9, 2, 1⟩, .pos ⟨17, 2, 9⟩])] ∧
    names.length = 2 := by
  have h : (parseAs .importDecls witnessImports).isSome = true := by decide +kernel
  obtain ⟨v, hv⟩ := Option.isSome_iff_exists.1 h
  have h1 : (parseAs .importDecls witnessImports).map (fun v : W NodeImportDeclarations => (v.start, v.stop, v.node.importList.length))
      = some (⟨9, 2, 1⟩, ⟨17, 2, 9⟩, 2) := by decide +kernel
  rw [hv] at h1
  obtain ⟨⟨l⟩, s, e⟩ := v
  simp only [Option.map_some, Option.some.injEq, Prod.mk.injEq] at h1
  obtain ⟨rfl, rfl, h3⟩ := h1
  refine ⟨l.map (W.rv NodeImportedName.rv), (C62_parsers .ImportDeclarations _ _).2 ⟨_, hv, rfl⟩, ?_⟩
  rw [List.length_map]; exact h3

end Verif
