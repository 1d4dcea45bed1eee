import Verif.Proofs.UnparseDerives
import Verif.Proofs.ParserHead
import Verif.Spec.Essential
/-
The essential tokens of a derivable word are the tokens of its tree.
Generated by tools/gen_essential.py.
-/
namespace Verif

set_option linter.unusedSimpArgs false
set_option maxHeartbeats 1000000

/-- the token before is not `builtin` -/
def NB (b : List Token) : Prop := b.head? ≠ some .builtin

/-- nonterminals that can end with `}` -/
def endsBrace : NT → Bool
  | .contractTypeArgs | .fullExpr | .pmExprClause | .statement | .nextStatement | .stmtBlock
  | .pmClause | .librarySingle | .libraryDef | .contractField | .contractDef | .program => true
  | .star n => endsBrace n
  | .plus n => endsBrace n
  | .opt n => endsBrace n
  | _ => false

/-- nonterminals that can end with an expression -/
def exprLast : NT → Bool
  | .fullExpr | .pmExprClause | .statement | .nextStatement | .stmtBlock
  | .pmClause | .librarySingle | .libraryDef | .contractField | .contractDef | .program => true
  | .star n => exprLast n
  | .plus n => exprLast n
  | .opt n => exprLast n
  | _ => false

/-- what is known about the tokens before, after something has been read -/
def FineB (e : Bool) (c : List Token) : Prop :=
  c.head? ≠ some .openParen ∧ c.head? ≠ some .builtin ∧
    (∀ x r, c ≠ .identifier x :: .builtin :: r) ∧ (e = false → c.head? ≠ some .closeBrace)

theorem FineB.nb {e : Bool} {c : List Token} (h : FineB e c) : NB c := h.2.1

theorem FineB.weaken {e e' : Bool} {c : List Token} (h : FineB e c) (he : e' = false → e = false) :
    FineB e' c := ⟨h.1, h.2.1, h.2.2.1, fun k => h.2.2.2 (he k)⟩

theorem FineB.step {e e1 e2 : Bool} {c : List Token} {w : List STok} (h : FineB e1 c)
    (k : w ≠ [] → NB c → FineB e2 ((bare w).reverse ++ c)) (he : e = false → e1 = false ∧ e2 = false) :
    FineB e ((bare w).reverse ++ c) := by
  by_cases hw : w = []
  · subst hw; exact h.weaken (fun k => (he k).1)
  · exact (k hw h.nb).weaken (fun k => (he k).2)

theorem FineB.tok {e : Bool} {t : Token} {c : List Token} (h1 : t ≠ .openParen) (h2 : t ≠ .builtin)
    (h3 : ∀ x, t ≠ .identifier x) (h4 : e = false → t ≠ .closeBrace) : FineB e (t :: c) :=
  ⟨by simpa using h1, by simpa using h2, fun x r h => h3 x (by injection h), fun k => by simpa using h4 k⟩

/-- what a derivable word ends with -/
theorem Derives.fine {n : NT} {w : List STok} {v : Val n} (d : Derives n w v) :
    ∀ b : List Token, w ≠ [] → NB b → FineB (endsBrace n) ((bare w).reverse ++ b) := by
  induction d with
  | starNil =>
    intro b hw; exact absurd rfl hw
  | starCons d1 d2 ih1 ih2 =>
    rename_i n w1 v w2 vs
    intro b hw hb
    by_cases h1 : w1 = []
    · subst h1
      exact ih2 b (by simpa using hw) hb
    · have f1 := ih1 b h1 hb
      have := FineB.step (e := endsBrace n) f1 (ih2 _) (fun k => ⟨k, k⟩)
      simpa [bare_append, endsBrace] using this
  | plusIntro d1 d2 ih1 ih2 =>
    rename_i n w1 v w2 vs
    intro b hw hb
    by_cases h1 : w1 = []
    · subst h1
      exact ih2 b (by simpa using hw) hb
    · have f1 := ih1 b h1 hb
      have := FineB.step (e := endsBrace n) f1 (ih2 _) (fun k => ⟨k, k⟩)
      simpa [bare_append, endsBrace] using this
  | optNone =>
    intro b hw; exact absurd rfl hw
  | optSome d1 ih1 =>
    intro b hw hb; exact ih1 b hw hb
  | hexNumber h =>
    subst h
    intro b hw hb
    refine ⟨by simp [bare], by simp [bare], ?_, by simp [bare, endsBrace]⟩
    intro x r e; simp [bare] at e
  | signedInt h =>
    subst h
    intro b hw hb
    refine ⟨by simp [bare], by simp [bare], ?_, by simp [bare, endsBrace]⟩
    intro x r e; simp [bare] at e
  | regularId h =>
    subst h
    intro b hw hb
    refine ⟨by simp [bare], by simp [bare], ?_, by simp [bare]⟩
    intro x r e
    simp only [bare, List.map_cons, List.map_nil, List.reverse_cons, List.reverse_nil,
      List.nil_append, List.cons_append, List.cons.injEq] at e
    rw [e.2] at hb
    exact hb rfl
  | specialId h =>
    subst h
    intro b hw hb
    refine ⟨by simp [bare], by simp [bare], ?_, by simp [bare, endsBrace]⟩
    intro x r e; simp [bare] at e
  | customId h =>
    subst h
    intro b hw hb
    refine ⟨by simp [bare], by simp [bare], ?_, by simp [bare, endsBrace]⟩
    intro x r e; simp [bare] at e
  | templateId h =>
    subst h
    intro b hw hb
    refine ⟨by simp [bare], by simp [bare], ?_, by simp [bare, endsBrace]⟩
    intro x r e; simp [bare] at e
  | stringLit h =>
    subst h
    intro b hw hb
    refine ⟨by simp [bare], by simp [bare], ?_, by simp [bare, endsBrace]⟩
    intro x r e; simp [bare] at e
  | byteString h =>
    subst h
    intro b hw hb
    refine ⟨by simp [bare], by simp [bare], ?_, by simp [bare, endsBrace]⟩
    intro x r e; simp [bare] at e
  | typeNameBytes d1 ih1 =>
    intro b hw hb; exact (ih1 b hw hb).weaken (by decide)
  | typeNameEvent h =>
    subst h
    intro b hw hb
    refine ⟨by simp [bare], by simp [bare], ?_, by simp [bare, endsBrace]⟩
    intro x r e; simp [bare] at e
  | typeNameCustom d1 ih1 =>
    intro b hw hb; exact (ih1 b hw hb).weaken (by decide)
  | importedRegular d1 ih1 =>
    intro b hw hb; exact (ih1 b hw hb).weaken (by decide)
  | importedAliased h d1 d2 ih1 ih2 =>
    subst h
    intro b hw hb
    refine FineB.weaken (e := (endsBrace .typeName)) ?_ (by decide)
    simpa [bare_append, bare_cons] using (ih2 _ (d2.ne_nil rfl) (FineB.nb (FineB.tok (e := false) (t := .as_) (by decide) (by decide) (by intro _ h; cases h) (by decide))))
  | importMore h d1 d2 ih1 ih2 =>
    subst h
    intro b hw hb
    refine FineB.weaken (e := (endsBrace .importedName)) ?_ (by decide)
    simpa [bare_append, bare_cons] using (ih2 _ (d2.ne_nil rfl) (FineB.nb (FineB.tok (e := false) (t := .import_) (by decide) (by decide) (by intro _ h; cases h) (by decide))))
  | importFirst h d1 ih1 =>
    subst h
    intro b hw hb
    refine FineB.weaken (e := (endsBrace (.plus .importedName))) ?_ (by decide)
    simpa [bare_append, bare_cons] using (ih1 _ (d1.ne_nil rfl) (FineB.nb (FineB.tok (e := false) (t := .import_) (by decide) (by decide) (by intro _ h; cases h) (by decide))))
  | metaName d1 ih1 =>
    intro b hw hb; exact (ih1 b hw hb).weaken (by decide)
  | metaNamespace h d1 d2 ih1 ih2 =>
    subst h
    intro b hw hb
    refine FineB.weaken (e := (endsBrace .typeName)) ?_ (by decide)
    simpa [bare_append, bare_cons] using (ih2 _ (d2.ne_nil rfl) (FineB.nb (FineB.tok (e := false) (t := .dot) (by decide) (by decide) (by intro _ h; cases h) (by decide))))
  | metaHexspace h d1 d2 ih1 ih2 =>
    subst h
    intro b hw hb
    refine FineB.weaken (e := (endsBrace .typeName)) ?_ (by decide)
    simpa [bare_append, bare_cons] using (ih2 _ (d2.ne_nil rfl) (FineB.nb (FineB.tok (e := false) (t := .dot) (by decide) (by decide) (by intro _ h; cases h) (by decide))))
  | metaByStr h =>
    subst h
    intro b hw hb
    refine ⟨by simp [bare], by simp [bare], ?_, by simp [bare, endsBrace]⟩
    intro x r e; simp [bare] at e
  | varName d1 ih1 =>
    intro b hw hb; exact (ih1 b hw hb).weaken (by decide)
  | varSpecial d1 ih1 =>
    intro b hw hb; exact (ih1 b hw hb).weaken (by decide)
  | varNamespace h d1 d2 ih1 ih2 =>
    subst h
    intro b hw hb
    refine FineB.weaken (e := (endsBrace .regularId)) ?_ (by decide)
    simpa [bare_append, bare_cons] using (ih2 _ (d2.ne_nil rfl) (FineB.nb (FineB.tok (e := false) (t := .dot) (by decide) (by decide) (by intro _ h; cases h) (by decide))))
  | builtinMore h d1 d2 ih1 ih2 =>
    subst h
    intro b hw hb
    refine FineB.weaken (e := (endsBrace .varId)) ?_ (by decide)
    simpa [bare_append, bare_cons] using (ih2 _ (d2.ne_nil rfl) (FineB.nb (ih1 _ (d1.ne_nil rfl) hb)))
  | builtinOne d1 ih1 =>
    intro b hw hb; exact (ih1 b hw hb).weaken (by decide)
  | builtinUnit h =>
    subst h
    intro b hw hb
    refine ⟨by simp [bare], by simp [bare], ?_, by simp [bare, endsBrace]⟩
    intro x r e; simp [bare] at e
  | remGeneric h d1 d2 ih1 ih2 =>
    subst h
    intro b hw hb
    refine FineB.weaken (e := ((endsBrace .metaId) || endsBrace (.star .typeArg))) ?_ (by decide)
    simpa [bare_append, bare_cons] using (FineB.step (e := ((endsBrace .metaId) || endsBrace (.star .typeArg))) (ih1 _ (d1.ne_nil rfl) hb) (ih2 _) (by decide))
  | remMap h d1 d2 ih1 ih2 =>
    subst h
    intro b hw hb
    refine FineB.weaken (e := (endsBrace .mapValue)) ?_ (by decide)
    simpa [bare_append, bare_cons] using (ih2 _ (d2.ne_nil rfl) (FineB.nb (ih1 _ (d1.ne_nil rfl) (FineB.nb (FineB.tok (e := false) (t := .map) (by decide) (by decide) (by intro _ h; cases h) (by decide))))))
  | remParen h d1 ih1 =>
    subst h
    intro b hw hb
    refine ⟨by simp [bare], by simp [bare], ?_, by simp [bare, endsBrace]⟩
    intro x r e; simp [bare] at e
  | remAddress d1 ih1 =>
    intro b hw hb; exact (ih1 b hw hb).weaken (by decide)
  | remForall h d1 d2 ih1 ih2 =>
    subst h
    intro b hw hb
    refine FineB.weaken (e := (endsBrace .remaining)) ?_ (by decide)
    simpa [bare_append, bare_cons] using (ih2 _ (d2.ne_nil rfl) (FineB.nb (FineB.tok (e := false) (t := .dot) (by decide) (by decide) (by intro _ h; cases h) (by decide))))
  | remTypeVar d1 ih1 =>
    intro b hw hb; exact (ih1 b hw hb).weaken (by decide)
  | funSigMore h d1 d2 ih1 ih2 =>
    subst h
    intro b hw hb
    refine FineB.weaken (e := (endsBrace .funSig)) ?_ (by decide)
    simpa [bare_append, bare_cons] using (ih2 _ (d2.ne_nil rfl) (FineB.nb (FineB.tok (e := false) (t := .arrow) (by decide) (by decide) (by intro _ h; cases h) (by decide))))
  | funSigLast h d1 d2 ih1 ih2 =>
    subst h
    intro b hw hb
    refine FineB.weaken (e := (endsBrace .remaining)) ?_ (by decide)
    simpa [bare_append, bare_cons] using (ih2 _ (d2.ne_nil rfl) (FineB.nb (FineB.tok (e := false) (t := .arrow) (by decide) (by decide) (by intro _ h; cases h) (by decide))))
  | typeFun d1 ih1 =>
    intro b hw hb; exact (ih1 b hw hb).weaken (by decide)
  | typeRem d1 ih1 =>
    intro b hw hb; exact (ih1 b hw hb).weaken (by decide)
  | argParen h d1 ih1 =>
    subst h
    intro b hw hb
    refine ⟨by simp [bare], by simp [bare], ?_, by simp [bare, endsBrace]⟩
    intro x r e; simp [bare] at e
  | argMeta d1 ih1 =>
    intro b hw hb; exact (ih1 b hw hb).weaken (by decide)
  | argTemplate d1 ih1 =>
    intro b hw hb; exact (ih1 b hw hb).weaken (by decide)
  | argAddress d1 ih1 =>
    intro b hw hb; exact (ih1 b hw hb).weaken (by decide)
  | argMap h d1 d2 ih1 ih2 =>
    subst h
    intro b hw hb
    refine FineB.weaken (e := (endsBrace .mapValue)) ?_ (by decide)
    simpa [bare_append, bare_cons] using (ih2 _ (d2.ne_nil rfl) (FineB.nb (ih1 _ (d1.ne_nil rfl) (FineB.nb (FineB.tok (e := false) (t := .map) (by decide) (by decide) (by intro _ h; cases h) (by decide))))))
  | addrEmpty h d1 ih1 =>
    subst h
    intro b hw hb
    refine ⟨by simp [bare], by simp [bare], ?_, by simp [bare, endsBrace]⟩
    intro x r e; simp [bare] at e
  | addrContract h d1 d2 ih1 ih2 =>
    subst h
    intro b hw hb
    refine ⟨by simp [bare], by simp [bare], ?_, by simp [bare, endsBrace]⟩
    intro x r e; simp [bare] at e
  | addrLibrary h d1 ih1 =>
    subst h
    intro b hw hb
    refine ⟨by simp [bare], by simp [bare], ?_, by simp [bare, endsBrace]⟩
    intro x r e; simp [bare] at e
  | addrSpecial h d1 d2 ih1 ih2 =>
    subst h
    intro b hw hb
    refine ⟨by simp [bare], by simp [bare], ?_, by simp [bare, endsBrace]⟩
    intro x r e; simp [bare] at e
  | addrFieldList h d1 d2 ih1 ih2 =>
    subst h
    intro b hw hb
    refine FineB.weaken (e := ((endsBrace .addressField) || endsBrace (.star .nextAddressField))) ?_ (by decide)
    simpa [bare_append, bare_cons] using (FineB.step (e := ((endsBrace .addressField) || endsBrace (.star .nextAddressField))) (ih1 _ (d1.ne_nil rfl) hb) (ih2 _) (by decide))
  | nextAddrField h d1 ih1 =>
    subst h
    intro b hw hb
    refine FineB.weaken (e := (endsBrace .addressField)) ?_ (by decide)
    simpa [bare_append, bare_cons] using (ih1 _ (d1.ne_nil rfl) (FineB.nb (FineB.tok (e := false) (t := .comma) (by decide) (by decide) (by intro _ h; cases h) (by decide))))
  | addrField h d1 d2 ih1 ih2 =>
    subst h
    intro b hw hb
    refine FineB.weaken (e := (endsBrace .scillaType)) ?_ (by decide)
    simpa [bare_append, bare_cons] using (ih2 _ (d2.ne_nil rfl) (FineB.nb (FineB.tok (e := false) (t := .colon) (by decide) (by decide) (by intro _ h; cases h) (by decide))))
  | keyMeta d1 ih1 =>
    intro b hw hb; exact (ih1 b hw hb).weaken (by decide)
  | keyParenMeta h d1 ih1 =>
    subst h
    intro b hw hb
    refine ⟨by simp [bare], by simp [bare], ?_, by simp [bare, endsBrace]⟩
    intro x r e; simp [bare] at e
  | keyParenAddress h d1 ih1 =>
    subst h
    intro b hw hb
    refine ⟨by simp [bare], by simp [bare], ?_, by simp [bare, endsBrace]⟩
    intro x r e; simp [bare] at e
  | keyAddress d1 ih1 =>
    intro b hw hb; exact (ih1 b hw hb).weaken (by decide)
  | valMeta d1 ih1 =>
    intro b hw hb; exact (ih1 b hw hb).weaken (by decide)
  | valMap h d1 d2 ih1 ih2 =>
    subst h
    intro b hw hb
    refine FineB.weaken (e := (endsBrace .mapValue)) ?_ (by decide)
    simpa [bare_append, bare_cons] using (ih2 _ (d2.ne_nil rfl) (FineB.nb (ih1 _ (d1.ne_nil rfl) (FineB.nb (FineB.tok (e := false) (t := .map) (by decide) (by decide) (by intro _ h; cases h) (by decide))))))
  | valParen h d1 ih1 =>
    subst h
    intro b hw hb
    refine ⟨by simp [bare], by simp [bare], ?_, by simp [bare, endsBrace]⟩
    intro x r e; simp [bare] at e
  | valAddress d1 ih1 =>
    intro b hw hb; exact (ih1 b hw hb).weaken (by decide)
  | mvaParen h d1 ih1 =>
    subst h
    intro b hw hb
    refine ⟨by simp [bare], by simp [bare], ?_, by simp [bare, endsBrace]⟩
    intro x r e; simp [bare] at e
  | mvaMeta d1 ih1 =>
    intro b hw hb; exact (ih1 b hw hb).weaken (by decide)
  | mvaMap h d1 d2 ih1 ih2 =>
    subst h
    intro b hw hb
    refine FineB.weaken (e := (endsBrace .mapValue)) ?_ (by decide)
    simpa [bare_append, bare_cons] using (ih2 _ (d2.ne_nil rfl) (FineB.nb (ih1 _ (d1.ne_nil rfl) (FineB.nb (FineB.tok (e := false) (t := .map) (by decide) (by decide) (by intro _ h; cases h) (by decide))))))
  | program h d1 d2 d3 d4 ih1 ih2 ih3 ih4 =>
    subst h
    intro b hw hb
    refine FineB.weaken (e := (endsBrace .contractDef)) ?_ (by decide)
    simpa [bare_append, bare_cons] using (ih4 _ (d4.ne_nil rfl) (FineB.nb (FineB.step (e := (((endsBrace .signedInt) || endsBrace (.opt .importDecls)) || endsBrace (.opt .libraryDef))) (FineB.step (e := ((endsBrace .signedInt) || endsBrace (.opt .importDecls))) (ih1 _ (d1.ne_nil rfl) (FineB.nb (FineB.tok (e := false) (t := .scillaVersion) (by decide) (by decide) (by intro _ h; cases h) (by decide)))) (ih2 _) (by decide)) (ih3 _) (by decide))))
  | libraryDef h d1 d2 ih1 ih2 =>
    subst h
    intro b hw hb
    refine FineB.weaken (e := ((endsBrace .typeName) || endsBrace (.star .librarySingle))) ?_ (by decide)
    simpa [bare_append, bare_cons] using (FineB.step (e := ((endsBrace .typeName) || endsBrace (.star .librarySingle))) (ih1 _ (d1.ne_nil rfl) (FineB.nb (FineB.tok (e := false) (t := .library) (by decide) (by decide) (by intro _ h; cases h) (by decide)))) (ih2 _) (by decide))
  | libLet h d1 d2 d3 ih1 ih2 ih3 =>
    subst h
    intro b hw hb
    refine FineB.weaken (e := (endsBrace .fullExpr)) ?_ (by decide)
    simpa [bare_append, bare_cons] using (ih3 _ (d3.ne_nil rfl) (FineB.nb (FineB.tok (e := false) (t := .equals) (by decide) (by decide) (by intro _ h; cases h) (by decide))))
  | libType h d1 ih1 =>
    subst h
    intro b hw hb
    refine FineB.weaken (e := (endsBrace .typeName)) ?_ (by decide)
    simpa [bare_append, bare_cons] using (ih1 _ (d1.ne_nil rfl) (FineB.nb (FineB.tok (e := false) (t := .type) (by decide) (by decide) (by intro _ h; cases h) (by decide))))
  | libTypeAlts h d1 d2 ih1 ih2 =>
    subst h
    intro b hw hb
    refine FineB.weaken (e := (endsBrace (.plus .typeAlt))) ?_ (by decide)
    simpa [bare_append, bare_cons] using (ih2 _ (d2.ne_nil rfl) (FineB.nb (FineB.tok (e := false) (t := .equals) (by decide) (by decide) (by intro _ h; cases h) (by decide))))
  | typedId h d1 d2 ih1 ih2 =>
    subst h
    intro b hw hb
    refine FineB.weaken (e := (endsBrace .typeAnn)) ?_ (by decide)
    simpa [bare_append, bare_cons] using (ih2 _ (d2.ne_nil rfl) (FineB.nb (ih1 _ (d1.ne_nil rfl) hb)))
  | typeAnn h d1 ih1 =>
    subst h
    intro b hw hb
    refine FineB.weaken (e := (endsBrace .scillaType)) ?_ (by decide)
    simpa [bare_append, bare_cons] using (ih1 _ (d1.ne_nil rfl) (FineB.nb (FineB.tok (e := false) (t := .colon) (by decide) (by decide) (by intro _ h; cases h) (by decide))))
  | altType h d1 ih1 =>
    subst h
    intro b hw hb
    refine FineB.weaken (e := (endsBrace .typeName)) ?_ (by decide)
    simpa [bare_append, bare_cons] using (ih1 _ (d1.ne_nil rfl) (FineB.nb (FineB.tok (e := false) (t := .pipe) (by decide) (by decide) (by intro _ h; cases h) (by decide))))
  | altTypeArgs h d1 d2 ih1 ih2 =>
    subst h
    intro b hw hb
    refine FineB.weaken (e := (endsBrace (.plus .typeArg))) ?_ (by decide)
    simpa [bare_append, bare_cons] using (ih2 _ (d2.ne_nil rfl) (FineB.nb (FineB.tok (e := false) (t := .of_) (by decide) (by decide) (by intro _ h; cases h) (by decide))))
  | mvWithArgs h d1 d2 ih1 ih2 =>
    subst h
    intro b hw hb
    refine FineB.weaken (e := (endsBrace (.plus .mapValueArgs))) ?_ (by decide)
    simpa [bare_append, bare_cons] using (ih2 _ (d2.ne_nil rfl) (FineB.nb (ih1 _ (d1.ne_nil rfl) hb)))
  | mvNoArgs d1 ih1 =>
    intro b hw hb; exact (ih1 b hw hb).weaken (by decide)
  | contractTypeArgs h d1 ih1 =>
    subst h
    intro b hw hb
    refine ⟨by simp [bare], by simp [bare], ?_, by simp [bare, endsBrace]⟩
    intro x r e; simp [bare] at e
  | exprLet h d1 d2 d3 d4 ih1 ih2 ih3 ih4 =>
    subst h
    intro b hw hb
    refine FineB.weaken (e := (endsBrace .fullExpr)) ?_ (by decide)
    simpa [bare_append, bare_cons] using (ih4 _ (d4.ne_nil rfl) (FineB.nb (FineB.tok (e := false) (t := .in_) (by decide) (by decide) (by intro _ h; cases h) (by decide))))
  | exprFun h d1 d2 d3 ih1 ih2 ih3 =>
    subst h
    intro b hw hb
    refine FineB.weaken (e := (endsBrace .fullExpr)) ?_ (by decide)
    simpa [bare_append, bare_cons] using (ih3 _ (d3.ne_nil rfl) (FineB.nb (FineB.tok (e := false) (t := .doubleArrow) (by decide) (by decide) (by intro _ h; cases h) (by decide))))
  | exprCall h d1 d2 ih1 ih2 =>
    subst h
    intro b hw hb
    refine FineB.weaken (e := (endsBrace (.plus .varId))) ?_ (by decide)
    simpa [bare_append, bare_cons] using (ih2 _ (d2.ne_nil rfl) (FineB.nb (ih1 _ (d1.ne_nil rfl) hb)))
  | exprAtomic d1 ih1 =>
    intro b hw hb; exact (ih1 b hw hb).weaken (by decide)
  | exprBuiltin h d1 d2 d3 ih1 ih2 ih3 =>
    subst h
    intro b hw hb
    cases d1 with | regularId hr =>
    subst hr
    rename_i w2 w3 _ _ _ _ x _ _
    have nb : NB ((bare w2).reverse ++ (.identifier x :: .builtin :: b)) := by
      by_cases h2 : w2 = []
      · subst h2; simp [NB, bare]
      · exact (ih2 _ h2 (by simp [NB])).nb
    have f3 := ih3 _ (d3.ne_nil rfl) nb
    refine FineB.weaken (e := endsBrace .builtinArgs) ?_ (by decide)
    simpa [bare_append, bare_cons, bare_nil] using f3
  | exprMessage h d1 d2 ih1 ih2 =>
    subst h
    intro b hw hb
    refine ⟨by simp [bare], by simp [bare], ?_, by simp [bare, endsBrace]⟩
    intro x r e; simp [bare] at e
  | exprMatch h d1 d2 ih1 ih2 =>
    subst h
    intro b hw hb
    refine ⟨by simp [bare], by simp [bare], ?_, by simp [bare, endsBrace]⟩
    intro x r e; simp [bare] at e
  | exprConstr h d1 d2 d3 ih1 ih2 ih3 =>
    subst h
    intro b hw hb
    refine FineB.weaken (e := (((endsBrace .metaId) || endsBrace (.opt .contractTypeArgs)) || endsBrace (.star .varId))) ?_ (by decide)
    simpa [bare_append, bare_cons] using (FineB.step (e := (((endsBrace .metaId) || endsBrace (.opt .contractTypeArgs)) || endsBrace (.star .varId))) (FineB.step (e := ((endsBrace .metaId) || endsBrace (.opt .contractTypeArgs))) (ih1 _ (d1.ne_nil rfl) hb) (ih2 _) (by decide)) (ih3 _) (by decide))
  | exprTFun h d1 d2 ih1 ih2 =>
    subst h
    intro b hw hb
    refine FineB.weaken (e := (endsBrace .fullExpr)) ?_ (by decide)
    simpa [bare_append, bare_cons] using (ih2 _ (d2.ne_nil rfl) (FineB.nb (FineB.tok (e := false) (t := .doubleArrow) (by decide) (by decide) (by intro _ h; cases h) (by decide))))
  | exprTApp h d1 d2 ih1 ih2 =>
    subst h
    intro b hw hb
    refine FineB.weaken (e := (endsBrace (.plus .typeArg))) ?_ (by decide)
    simpa [bare_append, bare_cons] using (ih2 _ (d2.ne_nil rfl) (FineB.nb (ih1 _ (d1.ne_nil rfl) (FineB.nb (FineB.tok (e := false) (t := .at_) (by decide) (by decide) (by intro _ h; cases h) (by decide))))))
  | pmExprClause h d1 d2 ih1 ih2 =>
    subst h
    intro b hw hb
    refine FineB.weaken (e := (endsBrace .fullExpr)) ?_ (by decide)
    simpa [bare_append, bare_cons] using (ih2 _ (d2.ne_nil rfl) (FineB.nb (FineB.tok (e := false) (t := .doubleArrow) (by decide) (by decide) (by intro _ h; cases h) (by decide))))
  | patWildcard h =>
    subst h
    intro b hw hb
    refine ⟨by simp [bare], by simp [bare], ?_, by simp [bare, endsBrace]⟩
    intro x r e; simp [bare] at e
  | patBinder d1 ih1 =>
    intro b hw hb; exact (ih1 b hw hb).weaken (by decide)
  | patConstr h d1 d2 ih1 ih2 =>
    subst h
    intro b hw hb
    refine FineB.weaken (e := ((endsBrace .metaId) || endsBrace (.star .argPattern))) ?_ (by decide)
    simpa [bare_append, bare_cons] using (FineB.step (e := ((endsBrace .metaId) || endsBrace (.star .argPattern))) (ih1 _ (d1.ne_nil rfl) hb) (ih2 _) (by decide))
  | apWildcard h =>
    subst h
    intro b hw hb
    refine ⟨by simp [bare], by simp [bare], ?_, by simp [bare, endsBrace]⟩
    intro x r e; simp [bare] at e
  | apBinder d1 ih1 =>
    intro b hw hb; exact (ih1 b hw hb).weaken (by decide)
  | apConstr d1 ih1 =>
    intro b hw hb; exact (ih1 b hw hb).weaken (by decide)
  | apParen h d1 ih1 =>
    subst h
    intro b hw hb
    refine ⟨by simp [bare], by simp [bare], ?_, by simp [bare, endsBrace]⟩
    intro x r e; simp [bare] at e
  | nextMessage h d1 ih1 =>
    subst h
    intro b hw hb
    refine FineB.weaken (e := (endsBrace .messageEntry)) ?_ (by decide)
    simpa [bare_append, bare_cons] using (ih1 _ (d1.ne_nil rfl) (FineB.nb (FineB.tok (e := false) (t := .semicolon) (by decide) (by decide) (by intro _ h; cases h) (by decide))))
  | msgLiteral h d1 d2 ih1 ih2 =>
    subst h
    intro b hw hb
    refine FineB.weaken (e := (endsBrace .valueLit)) ?_ (by decide)
    simpa [bare_append, bare_cons] using (ih2 _ (d2.ne_nil rfl) (FineB.nb (FineB.tok (e := false) (t := .colon) (by decide) (by decide) (by intro _ h; cases h) (by decide))))
  | msgVariable h d1 d2 ih1 ih2 =>
    subst h
    intro b hw hb
    refine FineB.weaken (e := (endsBrace .varId)) ?_ (by decide)
    simpa [bare_append, bare_cons] using (ih2 _ (d2.ne_nil rfl) (FineB.nb (FineB.tok (e := false) (t := .colon) (by decide) (by decide) (by intro _ h; cases h) (by decide))))
  | atomicVar d1 ih1 =>
    intro b hw hb; exact (ih1 b hw hb).weaken (by decide)
  | atomicLit d1 ih1 =>
    intro b hw hb; exact (ih1 b hw hb).weaken (by decide)
  | litInt h d1 d2 ih1 ih2 =>
    subst h
    intro b hw hb
    refine FineB.weaken (e := (endsBrace .signedInt)) ?_ (by decide)
    simpa [bare_append, bare_cons] using (ih2 _ (d2.ne_nil rfl) (FineB.nb (ih1 _ (d1.ne_nil rfl) hb)))
  | litHex d1 ih1 =>
    intro b hw hb; exact (ih1 b hw hb).weaken (by decide)
  | litString d1 ih1 =>
    intro b hw hb; exact (ih1 b hw hb).weaken (by decide)
  | litEmp h d1 d2 ih1 ih2 =>
    subst h
    intro b hw hb
    refine FineB.weaken (e := (endsBrace .mapValue)) ?_ (by decide)
    simpa [bare_append, bare_cons] using (ih2 _ (d2.ne_nil rfl) (FineB.nb (ih1 _ (d1.ne_nil rfl) (FineB.nb (FineB.tok (e := false) (t := .emp) (by decide) (by decide) (by intro _ h; cases h) (by decide))))))
  | stLoad h d1 d2 ih1 ih2 =>
    subst h
    intro b hw hb
    refine FineB.weaken (e := (endsBrace .varId)) ?_ (by decide)
    simpa [bare_append, bare_cons] using (ih2 _ (d2.ne_nil rfl) (FineB.nb (FineB.tok (e := false) (t := .leftArrow) (by decide) (by decide) (by intro _ h; cases h) (by decide))))
  | stRemote d1 ih1 =>
    intro b hw hb; exact (ih1 b hw hb).weaken (by decide)
  | stStore h d1 d2 ih1 ih2 =>
    subst h
    intro b hw hb
    refine FineB.weaken (e := (endsBrace .varId)) ?_ (by decide)
    simpa [bare_append, bare_cons] using (ih2 _ (d2.ne_nil rfl) (FineB.nb (FineB.tok (e := false) (t := .colonEquals) (by decide) (by decide) (by intro _ h; cases h) (by decide))))
  | stBind h d1 d2 ih1 ih2 =>
    subst h
    intro b hw hb
    refine FineB.weaken (e := (endsBrace .fullExpr)) ?_ (by decide)
    simpa [bare_append, bare_cons] using (ih2 _ (d2.ne_nil rfl) (FineB.nb (FineB.tok (e := false) (t := .equals) (by decide) (by decide) (by intro _ h; cases h) (by decide))))
  | stReadBC h d1 d2 d3 ih1 ih2 ih3 =>
    subst h
    intro b hw hb
    refine FineB.weaken (e := ((endsBrace .typeName) || endsBrace (.opt .bcFetchArgs))) ?_ (by decide)
    simpa [bare_append, bare_cons] using (FineB.step (e := ((endsBrace .typeName) || endsBrace (.opt .bcFetchArgs))) (ih2 _ (d2.ne_nil rfl) (FineB.nb (FineB.tok (e := false) (t := .ampersand) (by decide) (by decide) (by intro _ h; cases h) (by decide)))) (ih3 _) (by decide))
  | stMapGet h d1 d2 d3 ih1 ih2 ih3 =>
    subst h
    intro b hw hb
    refine FineB.weaken (e := (endsBrace (.plus .mapAccess))) ?_ (by decide)
    simpa [bare_append, bare_cons] using (ih3 _ (d3.ne_nil rfl) (FineB.nb (ih2 _ (d2.ne_nil rfl) (FineB.nb (FineB.tok (e := false) (t := .leftArrow) (by decide) (by decide) (by intro _ h; cases h) (by decide))))))
  | stMapGetExists h d1 d2 d3 ih1 ih2 ih3 =>
    subst h
    intro b hw hb
    refine FineB.weaken (e := (endsBrace (.plus .mapAccess))) ?_ (by decide)
    simpa [bare_append, bare_cons] using (ih3 _ (d3.ne_nil rfl) (FineB.nb (ih2 _ (d2.ne_nil rfl) (FineB.nb (FineB.tok (e := false) (t := .exists_) (by decide) (by decide) (by intro _ h; cases h) (by decide))))))
  | stMapUpdate h d1 d2 d3 ih1 ih2 ih3 =>
    subst h
    intro b hw hb
    refine FineB.weaken (e := (endsBrace .varId)) ?_ (by decide)
    simpa [bare_append, bare_cons] using (ih3 _ (d3.ne_nil rfl) (FineB.nb (FineB.tok (e := false) (t := .colonEquals) (by decide) (by decide) (by intro _ h; cases h) (by decide))))
  | stMapDelete h d1 d2 ih1 ih2 =>
    subst h
    intro b hw hb
    refine FineB.weaken (e := (endsBrace (.plus .mapAccess))) ?_ (by decide)
    simpa [bare_append, bare_cons] using (ih2 _ (d2.ne_nil rfl) (FineB.nb (ih1 _ (d1.ne_nil rfl) (FineB.nb (FineB.tok (e := false) (t := .delete) (by decide) (by decide) (by intro _ h; cases h) (by decide))))))
  | stAccept h =>
    subst h
    intro b hw hb
    refine ⟨by simp [bare], by simp [bare], ?_, by simp [bare, endsBrace]⟩
    intro x r e; simp [bare] at e
  | stSend h d1 ih1 =>
    subst h
    intro b hw hb
    refine FineB.weaken (e := (endsBrace .varId)) ?_ (by decide)
    simpa [bare_append, bare_cons] using (ih1 _ (d1.ne_nil rfl) (FineB.nb (FineB.tok (e := false) (t := .send) (by decide) (by decide) (by intro _ h; cases h) (by decide))))
  | stEvent h d1 ih1 =>
    subst h
    intro b hw hb
    refine FineB.weaken (e := (endsBrace .varId)) ?_ (by decide)
    simpa [bare_append, bare_cons] using (ih1 _ (d1.ne_nil rfl) (FineB.nb (FineB.tok (e := false) (t := .event) (by decide) (by decide) (by intro _ h; cases h) (by decide))))
  | stThrow h d1 ih1 =>
    subst h
    intro b hw hb
    refine FineB.weaken (e := (false || endsBrace (.opt .varId))) ?_ (by decide)
    simpa [bare_append, bare_cons] using (FineB.step (e := (false || endsBrace (.opt .varId))) (FineB.tok (e := false) (t := .throw) (by decide) (by decide) (by intro _ h; cases h) (by decide)) (ih1 _) (by decide))
  | stMatch h d1 d2 ih1 ih2 =>
    subst h
    intro b hw hb
    refine ⟨by simp [bare], by simp [bare], ?_, by simp [bare, endsBrace]⟩
    intro x r e; simp [bare] at e
  | stCall h d1 d2 ih1 ih2 =>
    subst h
    intro b hw hb
    refine FineB.weaken (e := ((endsBrace .componentId) || endsBrace (.star .varId))) ?_ (by decide)
    simpa [bare_append, bare_cons] using (FineB.step (e := ((endsBrace .componentId) || endsBrace (.star .varId))) (ih1 _ (d1.ne_nil rfl) hb) (ih2 _) (by decide))
  | stForall h d1 d2 ih1 ih2 =>
    subst h
    intro b hw hb
    refine FineB.weaken (e := (endsBrace .componentId)) ?_ (by decide)
    simpa [bare_append, bare_cons] using (ih2 _ (d2.ne_nil rfl) (FineB.nb (ih1 _ (d1.ne_nil rfl) (FineB.nb (FineB.tok (e := false) (t := .forall_) (by decide) (by decide) (by intro _ h; cases h) (by decide))))))
  | nextStatement h d1 ih1 =>
    subst h
    intro b hw hb
    refine FineB.weaken (e := (endsBrace .statement)) ?_ (by decide)
    simpa [bare_append, bare_cons] using (ih1 _ (d1.ne_nil rfl) (FineB.nb (FineB.tok (e := false) (t := .semicolon) (by decide) (by decide) (by intro _ h; cases h) (by decide))))
  | stmtBlock h d1 d2 ih1 ih2 =>
    subst h
    intro b hw hb
    refine FineB.weaken (e := ((endsBrace .statement) || endsBrace (.star .nextStatement))) ?_ (by decide)
    simpa [bare_append, bare_cons] using (FineB.step (e := ((endsBrace .statement) || endsBrace (.star .nextStatement))) (ih1 _ (d1.ne_nil rfl) hb) (ih2 _) (by decide))
  | bcFetchArgs h d1 ih1 =>
    subst h
    intro b hw hb
    refine ⟨by simp [bare], by simp [bare], ?_, by simp [bare, endsBrace]⟩
    intro x r e; simp [bare] at e
  | componentType d1 ih1 =>
    intro b hw hb; exact (ih1 b hw hb).weaken (by decide)
  | componentRegular d1 ih1 =>
    intro b hw hb; exact (ih1 b hw hb).weaken (by decide)
  | pmClause h d1 d2 ih1 ih2 =>
    subst h
    intro b hw hb
    refine FineB.weaken (e := (false || endsBrace (.opt .stmtBlock))) ?_ (by decide)
    simpa [bare_append, bare_cons] using (FineB.step (e := (false || endsBrace (.opt .stmtBlock))) (FineB.tok (e := false) (t := .doubleArrow) (by decide) (by decide) (by intro _ h; cases h) (by decide)) (ih2 _) (by decide))
  | rfState h d1 d2 d3 ih1 ih2 ih3 =>
    subst h
    intro b hw hb
    refine FineB.weaken (e := (endsBrace .varId)) ?_ (by decide)
    simpa [bare_append, bare_cons] using (ih3 _ (d3.ne_nil rfl) (FineB.nb (FineB.tok (e := false) (t := .dot) (by decide) (by decide) (by intro _ h; cases h) (by decide))))
  | rfSpecial h d1 d2 d3 ih1 ih2 ih3 =>
    subst h
    intro b hw hb
    refine FineB.weaken (e := (endsBrace .specialId)) ?_ (by decide)
    simpa [bare_append, bare_cons] using (ih3 _ (d3.ne_nil rfl) (FineB.nb (FineB.tok (e := false) (t := .dot) (by decide) (by decide) (by intro _ h; cases h) (by decide))))
  | rfMap h d1 d2 d3 d4 ih1 ih2 ih3 ih4 =>
    subst h
    intro b hw hb
    refine FineB.weaken (e := (endsBrace (.plus .mapAccess))) ?_ (by decide)
    simpa [bare_append, bare_cons] using (ih4 _ (d4.ne_nil rfl) (FineB.nb (ih3 _ (d3.ne_nil rfl) (FineB.nb (FineB.tok (e := false) (t := .dot) (by decide) (by decide) (by intro _ h; cases h) (by decide))))))
  | rfExists h d1 d2 d3 d4 ih1 ih2 ih3 ih4 =>
    subst h
    intro b hw hb
    refine FineB.weaken (e := (endsBrace (.plus .mapAccess))) ?_ (by decide)
    simpa [bare_append, bare_cons] using (ih4 _ (d4.ne_nil rfl) (FineB.nb (ih3 _ (d3.ne_nil rfl) (FineB.nb (FineB.tok (e := false) (t := .dot) (by decide) (by decide) (by intro _ h; cases h) (by decide))))))
  | rfCast h d1 d2 d3 ih1 ih2 ih3 =>
    subst h
    intro b hw hb
    refine FineB.weaken (e := (endsBrace .addressType)) ?_ (by decide)
    simpa [bare_append, bare_cons] using (ih3 _ (d3.ne_nil rfl) (FineB.nb (FineB.tok (e := false) (t := .as_) (by decide) (by decide) (by intro _ h; cases h) (by decide))))
  | mapAccess h d1 ih1 =>
    subst h
    intro b hw hb
    refine ⟨by simp [bare], by simp [bare], ?_, by simp [bare, endsBrace]⟩
    intro x r e; simp [bare] at e
  | paramPair d1 ih1 =>
    intro b hw hb; exact (ih1 b hw hb).weaken (by decide)
  | nextParamPair h d1 ih1 =>
    subst h
    intro b hw hb
    refine FineB.weaken (e := (endsBrace .paramPair)) ?_ (by decide)
    simpa [bare_append, bare_cons] using (ih1 _ (d1.ne_nil rfl) (FineB.nb (FineB.tok (e := false) (t := .comma) (by decide) (by decide) (by intro _ h; cases h) (by decide))))
  | compParams h d1 d2 ih1 ih2 =>
    subst h
    intro b hw hb
    refine ⟨by simp [bare], by simp [bare], ?_, by simp [bare, endsBrace]⟩
    intro x r e; simp [bare] at e
  | compTransition d1 ih1 =>
    intro b hw hb; exact (ih1 b hw hb).weaken (by decide)
  | compProcedure d1 ih1 =>
    intro b hw hb; exact (ih1 b hw hb).weaken (by decide)
  | transDef h d1 d2 d3 ih1 ih2 ih3 =>
    subst h
    intro b hw hb
    refine FineB.weaken (e := (endsBrace .compBody)) ?_ (by decide)
    simpa [bare_append, bare_cons] using (ih3 _ (d3.ne_nil rfl) (FineB.nb (ih2 _ (d2.ne_nil rfl) (FineB.nb (ih1 _ (d1.ne_nil rfl) (FineB.nb (FineB.tok (e := false) (t := .transition) (by decide) (by decide) (by intro _ h; cases h) (by decide))))))))
  | procDef h d1 d2 d3 ih1 ih2 ih3 =>
    subst h
    intro b hw hb
    refine FineB.weaken (e := (endsBrace .compBody)) ?_ (by decide)
    simpa [bare_append, bare_cons] using (ih3 _ (d3.ne_nil rfl) (FineB.nb (ih2 _ (d2.ne_nil rfl) (FineB.nb (ih1 _ (d1.ne_nil rfl) (FineB.nb (FineB.tok (e := false) (t := .procedure) (by decide) (by decide) (by intro _ h; cases h) (by decide))))))))
  | compBody h d1 ih1 =>
    subst h
    intro b hw hb
    refine ⟨by simp [bare], by simp [bare], ?_, by simp [bare, endsBrace]⟩
    intro x r e; simp [bare] at e
  | contractDef h d1 d2 d3 d4 d5 ih1 ih2 ih3 ih4 ih5 =>
    subst h
    intro b hw hb
    refine FineB.weaken (e := ((((endsBrace .compParams) || endsBrace (.opt .withConstraint)) || endsBrace (.star .contractField)) || endsBrace (.star .compDef))) ?_ (by decide)
    simpa [bare_append, bare_cons] using (FineB.step (e := ((((endsBrace .compParams) || endsBrace (.opt .withConstraint)) || endsBrace (.star .contractField)) || endsBrace (.star .compDef))) (FineB.step (e := (((endsBrace .compParams) || endsBrace (.opt .withConstraint)) || endsBrace (.star .contractField))) (FineB.step (e := ((endsBrace .compParams) || endsBrace (.opt .withConstraint))) (ih2 _ (d2.ne_nil rfl) (FineB.nb (ih1 _ (d1.ne_nil rfl) (FineB.nb (FineB.tok (e := false) (t := .contract) (by decide) (by decide) (by intro _ h; cases h) (by decide)))))) (ih3 _) (by decide)) (ih4 _) (by decide)) (ih5 _) (by decide))
  | contractField h d1 d2 ih1 ih2 =>
    subst h
    intro b hw hb
    refine FineB.weaken (e := (endsBrace .fullExpr)) ?_ (by decide)
    simpa [bare_append, bare_cons] using (ih2 _ (d2.ne_nil rfl) (FineB.nb (FineB.tok (e := false) (t := .equals) (by decide) (by decide) (by intro _ h; cases h) (by decide))))
  | withConstraint h d1 ih1 =>
    subst h
    intro b hw hb
    refine ⟨by simp [bare], by simp [bare], ?_, by simp [bare, endsBrace]⟩
    intro x r e; simp [bare] at e

/-! ### what is kept of a word, given what stands before and after it -/

def kept (b : List Token) : List Token → List Token → List Token
  | [], _ => []
  | t :: r, a => (if forgotten b t (r ++ a) then [] else [t]) ++ kept (t :: b) r a

theorem essentialFrom_eq : ∀ (w b : List Token), essentialFrom b w = kept b w []
  | [], _ => rfl
  | t :: r, b => by
    simp only [essentialFrom, kept, essentialFrom_eq r, List.append_nil]
    split <;> simp

def K (b : List Token) (w : List STok) (a r : List Token) : Prop := kept b (bare w) a = r

theorem K.nil {b a : List Token} : K b [] a [] := rfl

theorem K.tok {b a r : List Token} {w : List STok} {t : Token} {s e : Pos}
    (h : forgotten b t (bare w ++ a) = false) (k : K (t :: b) w a r) :
    K b (⟨s, t, e⟩ :: w) a (t :: r) := by
  simp only [K, bare_cons, kept, h, Bool.false_eq_true, if_false] at k ⊢
  rw [k]; rfl

theorem K.drop {b a r : List Token} {w : List STok} {t : Token} {s e : Pos}
    (h : forgotten b t (bare w ++ a) = true) (k : K (t :: b) w a r) :
    K b (⟨s, t, e⟩ :: w) a r := by
  simp only [K, bare_cons, kept, h, if_true] at k ⊢
  rw [k]; rfl

theorem kept_append : ∀ (w1 w2 b a : List Token),
    kept b (w1 ++ w2) a = kept b w1 (w2 ++ a) ++ kept (w1.reverse ++ b) w2 a
  | [], _, _, _ => rfl
  | t :: r, w2, b, a => by
    simp only [List.cons_append, kept, kept_append r w2, List.append_assoc, List.reverse_cons,
      List.nil_append]

theorem K.app {b a r1 r2 : List Token} {w1 w2 : List STok} (k1 : K b w1 (bare w2 ++ a) r1)
    (k2 : K ((bare w1).reverse ++ b) w2 a r2) : K b (w1 ++ w2) a (r1 ++ r2) := by
  simp only [K, bare_append, kept_append] at k1 k2 ⊢
  rw [k1, k2]

theorem K.to {b a r r' : List Token} {w : List STok} (k : K b w a r) (h : r = r') : K b w a r' :=
  h ▸ k

/-- what must be known about the tokens before a word -/
def Ctx (b : List Token) (w : List STok) : Prop :=
  (b.head? = some .openParen → (bare w).head? ≠ some .comma) ∧ NB b ∧
    (argumentsBegin b = true → (bare w).head? ≠ some .openParen)

theorem Ctx.left {b : List Token} {w1 w2 : List STok} (h : Ctx b (w1 ++ w2)) : Ctx b w1 := by
  cases w1 with
  | nil => exact ⟨fun _ => by simp [bare], h.2.1, fun _ => by simp [bare]⟩
  | cons t w1 => exact ⟨fun k => by simpa [bare] using h.1 k, h.2.1, fun k => by simpa [bare] using h.2.2 k⟩

theorem head_of {n : NT} {w : List STok} {v : Val n} (d : Derives n w v) {t : Token}
    (h : t.kind ∉ heads n) : (bare w).head? ≠ some t := by
  intro e
  cases w with
  | nil => simp [bare] at e
  | cons a w =>
    simp only [bare_cons, List.head?_cons, Option.some.injEq] at e
    exact h (e ▸ d.headed a w rfl)

theorem FineB.noArgs {c : List Token} (h : FineB false c) : argumentsBegin c = false := by
  obtain ⟨h1, h2, h3, h4⟩ := h
  unfold argumentsBegin
  split
  · rename_i x r; exact absurd rfl (h3 x r)
  · exact absurd rfl (h4 rfl)
  · rfl

theorem Ctx.ofFine {E : Bool} {n : NT} {c : List Token} {w : List STok} {v : Val n} (f : FineB E c)
    (d : Derives n w v) (h : E = false ∨ Token.openParen ∉ heads n) : Ctx c w := by
  refine ⟨fun k => absurd k f.1, f.nb, fun k => ?_⟩
  rcases h with rfl | h
  · rw [f.noArgs] at k; exact absurd k (by decide)
  · exact head_of d h

theorem Ctx.ofParen {n : NT} {c : List Token} {w : List STok} {v : Val n} (d : Derives n w v)
    (h : Token.comma ∉ heads n) : Ctx (.openParen :: c) w :=
  ⟨fun _ => head_of d h, by simp [NB], fun k => by simp [argumentsBegin] at k⟩

theorem Ctx.noOpen {b a : List Token} {w : List STok} {s e : Pos}
    (h : Ctx b (⟨s, .openParen, e⟩ :: w)) : forgotten b .openParen a = false := by
  have := h.2.2
  simp only [bare_cons, List.head?_cons, ne_eq, not_true_eq_false, imp_false,
    Bool.not_eq_true] at this
  simp [forgotten, this]

theorem Ctx.noUnit {b a : List Token} {w : List STok} {s e : Pos}
    (h : Ctx b (⟨s, .openParen, e⟩ :: w)) : forgotten (.openParen :: b) .closeParen a = false := by
  have := h.2.2
  simp only [bare_cons, List.head?_cons, ne_eq, not_true_eq_false, imp_false,
    Bool.not_eq_true] at this
  simp [forgotten, this]

theorem Ctx.noComma {b a : List Token} {w : List STok} {s e : Pos}
    (h : Ctx b (⟨s, .comma, e⟩ :: w)) : forgotten b .comma a = false := by
  have := h.1
  simp only [bare_cons, List.head?_cons, ne_eq, not_true_eq_false, imp_false] at this
  simpa [forgotten] using this

theorem FineB.noClose {E : Bool} {c a : List Token} (f : FineB E c) :
    forgotten c .closeParen a = false := by
  simp [forgotten, f.1]

/-- the next token does not start a variable -/
def NotVar (a : List Token) : Prop := a.head?.any startsVariable = false

theorem NotVar.tok {t : Token} {a : List Token} (h : startsVariable t = false) :
    NotVar (t :: a) := by simpa [NotVar] using h

theorem startsVariable_kind (t : Token) : startsVariable t.kind = startsVariable t := by
  cases t <;> rfl

theorem NotVar.app {n : NT} {a : List Token} {w : List STok} {v : Val n} (d : Derives n w v)
    (h : (heads n).all (fun k => !startsVariable k) = true) (k : NotVar a) :
    NotVar (bare w ++ a) := by
  cases w with
  | nil => exact k
  | cons t w =>
    have := List.all_eq_true.mp h _ (d.headed t w rfl)
    simp only [startsVariable_kind, Bool.not_eq_true'] at this
    simpa [NotVar, bare_cons] using this

theorem NotVar.app2 {n : NT} {a : List Token} {w w' : List STok} {v : Val n} (d : Derives n w v)
    (h : (heads n).all (fun k => !startsVariable k) = true) (k : NotVar (bare w' ++ a)) :
    NotVar (bare (w ++ w') ++ a) := by
  rw [bare_append, List.append_assoc]; exact k.app d h

/-- nonterminals whose words contain `import` -/
def impNT : NT → Bool
  | .importDecls | .program => true
  | .star n => impNT n
  | .plus n => impNT n
  | .opt n => impNT n
  | _ => false

/-- nonterminals as they are used in the grammar -/
def okNT : NT → Bool
  | .builtinArgs => false
  | .star n | .plus n =>
    okNT n && !impNT n && !nullable n &&
    (!exprLast n || (heads n).all (fun k => !startsVariable k)) &&
    (!endsBrace n || !(heads n).contains .openParen)
  | .opt n => okNT n
  | _ => true

def Std (n : NT) (w : List STok) (v : Val n) : Prop :=
  okNT n = true → ∀ b a, Ctx b w → (impNT n = true → Token.import_ ∉ b) →
    (exprLast n = true → NotVar a) → K b w a (unparse n v)

def Else : (n : NT) → List STok → Val n → Prop
  | .builtinArgs, w, v => ∀ b a, argumentsBegin b = true →
    K b w a (if v.node.arguments = [] then
        (if a.head?.any startsVariable then [] else [.openParen, .closeParen])
      else v.node.arguments.flatMap (·.node.toks))
  | .nextParamPair, w, v => ∀ b a, K (.openParen :: b) w a v.node.toks
  | .star .nextParamPair, w, vs => ∀ b a,
    K (.openParen :: b) w a (sepBy .comma (·.node.toks) vs)
  | _, _, _ => True

theorem argumentsBegin_nb {b : List Token} (h : argumentsBegin b = true) :
    b.head? ≠ some .openParen ∧ NB b := by
  unfold argumentsBegin at h
  split at h
  · simp [NB]
  · simp [NB]
  · cases h

theorem Derives.startsVar {a : List Token} {w : List STok} {v : Val .varId}
    (d : Derives .varId w v) : (bare w ++ a).head?.any startsVariable = true := by
  cases w with
  | nil => exact absurd rfl (d.ne_nil rfl)
  | cons t w =>
    have := d.headed t w rfl
    rw [bare_cons, List.cons_append, List.head?_cons, Option.any_some, ← startsVariable_kind]
    have h : (heads .varId).all startsVariable = true := by decide
    exact List.all_eq_true.mp h _ this

/-- the essential tokens of a derivable word, in any context it may stand in -/
theorem Derives.kept {n : NT} {w : List STok} {v : Val n} (d : Derives n w v) :
    Decent w → Std n w v ∧ Else n w v := by
  induction d with
  | starNil =>
    intro hd
    refine ⟨fun _ b a _ _ _ => K.nil, ?_⟩
    rename_i n
    cases n
    case nextParamPair => intro b a; exact K.nil
    all_goals trivial
  | starCons d1 d2 ih1 ih2 =>
    intro hd
    rename_i n w1 v w2 vs
    have g1 := ih1 hd.left
    have g2 := ih2 hd.right
    have std : Std (.star n) (w1 ++ w2) (v :: vs) := by
      intro ok b a hc hi ha
      have ok0 : okNT (.star n) = true := ok
      simp only [okNT, Bool.and_eq_true, Bool.or_eq_true, Bool.not_eq_true'] at ok
      obtain ⟨⟨⟨⟨o1, o2⟩, o3⟩, o4⟩, o5⟩ := ok
      have f := d1.fine b (d1.ne_nil o3) hc.2.1
      refine ((g1.1 o1 b _ hc.left (fun h => absurd h (by simp [o2])) (fun h => ?_)).app
        (g2.1 ok0 _ a (Ctx.ofFine f d2 ?_) (fun h => absurd (show impNT n = true from h) (by simp [o2]))
          (fun h => ha h))).to (by simp [unparse])
      · rcases o4 with o4 | o4
        · rw [o4] at h; cases h
        · exact NotVar.app d2 o4 (ha h)
      · rcases o5 with o5 | o5
        · exact .inl o5
        · exact .inr (by simpa [heads] using o5)
    refine ⟨std, ?_⟩
    cases n
    case nextParamPair =>
      intro b a
      have f := d1.fine (.openParen :: b) (d1.ne_nil rfl) (by simp [NB])
      exact ((g1.2 b _).app (g2.1 (by decide) _ a (Ctx.ofFine f d2 (.inl rfl))
        (fun h => absurd h (by decide)) (fun h => absurd h (by decide)))).to
          (by simp [sepBy, unparse])
    all_goals trivial
  | plusIntro d1 d2 ih1 ih2 =>
    intro hd
    rename_i n w1 v w2 vs
    have g1 := ih1 hd.left
    have g2 := ih2 hd.right
    have std : Std (.plus n) (w1 ++ w2) (v :: vs) := by
      intro ok b a hc hi ha
      have ok0 : okNT (.star n) = true := ok
      simp only [okNT, Bool.and_eq_true, Bool.or_eq_true, Bool.not_eq_true'] at ok
      obtain ⟨⟨⟨⟨o1, o2⟩, o3⟩, o4⟩, o5⟩ := ok
      have f := d1.fine b (d1.ne_nil o3) hc.2.1
      refine ((g1.1 o1 b _ hc.left (fun h => absurd h (by simp [o2])) (fun h => ?_)).app
        (g2.1 ok0 _ a (Ctx.ofFine f d2 ?_) (fun h => absurd (show impNT n = true from h) (by simp [o2]))
          (fun h => ha h))).to (by simp [unparse])
      · rcases o4 with o4 | o4
        · rw [o4] at h; cases h
        · exact NotVar.app d2 o4 (ha h)
      · rcases o5 with o5 | o5
        · exact .inl o5
        · exact .inr (by simpa [heads] using o5)
    exact ⟨std, trivial⟩
  | optNone =>
    intro hd
    exact ⟨fun _ b a _ _ _ => K.nil, trivial⟩
  | optSome d1 ih1 =>
    intro hd
    refine ⟨fun ok b a hc hi ha => ?_, trivial⟩
    exact ((ih1 hd).1 ok b a hc hi ha).to (by simp [unparse])
  | hexNumber h =>
    subst h
    intro hd
    refine ⟨fun hok b a hc hi ha => ?_, trivial⟩
    refine (K.tok rfl K.nil).to ?_
    first | rfl | unparse_simp
  | signedInt h =>
    subst h
    intro hd
    refine ⟨fun hok b a hc hi ha => ?_, trivial⟩
    refine (K.tok rfl K.nil).to ?_
    first | rfl | unparse_simp
  | regularId h =>
    subst h
    intro hd
    refine ⟨fun hok b a hc hi ha => ?_, trivial⟩
    refine (K.tok rfl K.nil).to ?_
    first | rfl | unparse_simp
  | specialId h =>
    subst h
    intro hd
    refine ⟨fun hok b a hc hi ha => ?_, trivial⟩
    refine (K.tok rfl K.nil).to ?_
    first | rfl | unparse_simp
  | customId h =>
    subst h
    intro hd
    refine ⟨fun hok b a hc hi ha => ?_, trivial⟩
    refine (K.tok rfl K.nil).to ?_
    first | rfl | unparse_simp
  | templateId h =>
    subst h
    intro hd
    refine ⟨fun hok b a hc hi ha => ?_, trivial⟩
    refine (K.tok rfl K.nil).to ?_
    first | rfl | unparse_simp
  | stringLit h =>
    subst h
    intro hd
    refine ⟨fun hok b a hc hi ha => ?_, trivial⟩
    refine (K.tok rfl K.nil).to ?_
    first | rfl | unparse_simp
  | byteString h =>
    subst h
    intro hd
    refine ⟨fun hok b a hc hi ha => ?_, trivial⟩
    refine (K.tok rfl K.nil).to ?_
    first | rfl | unparse_simp
  | typeNameBytes d1 ih1 =>
    intro hd
    have g1 := ih1 (fun t ht => hd t (by simp [ht]))
    refine ⟨fun hok b a hc hi ha => ?_, trivial⟩
    refine (g1.1 (by decide) _ _ hc (fun h => absurd h (by decide)) (fun h => absurd h (by decide))).to ?_
    first | rfl | unparse_simp
  | typeNameEvent h =>
    subst h
    intro hd
    refine ⟨fun hok b a hc hi ha => ?_, trivial⟩
    refine (K.tok rfl K.nil).to ?_
    first | rfl | unparse_simp
  | typeNameCustom d1 ih1 =>
    intro hd
    have g1 := ih1 (fun t ht => hd t (by simp [ht]))
    refine ⟨fun hok b a hc hi ha => ?_, trivial⟩
    refine (g1.1 (by decide) _ _ hc (fun h => absurd h (by decide)) (fun h => absurd h (by decide))).to ?_
    first | rfl | unparse_simp
  | importedRegular d1 ih1 =>
    intro hd
    have g1 := ih1 (fun t ht => hd t (by simp [ht]))
    refine ⟨fun hok b a hc hi ha => ?_, trivial⟩
    refine (g1.1 (by decide) _ _ hc (fun h => absurd h (by decide)) (fun h => absurd h (by decide))).to ?_
    first | rfl | unparse_simp
  | importedAliased h d1 d2 ih1 ih2 =>
    subst h
    intro hd
    have g1 := ih1 (fun t ht => hd t (by simp [ht]))
    have g2 := ih2 (fun t ht => hd t (by simp [ht]))
    refine ⟨fun hok b a hc hi ha => ?_, trivial⟩
    refine (K.app (g1.1 (by decide) _ _ hc.left (fun h => absurd h (by decide)) (fun h => absurd h (by decide))) (K.tok rfl (g2.1 (by decide) _ _ (Ctx.ofFine (E := false) (FineB.tok (e := false) (t := .as_) (by decide) (by decide) (by intro _ h; cases h) (by decide)) d2 (by decide)) (fun h => absurd h (by decide)) (fun h => absurd h (by decide))))).to ?_
    first | rfl | unparse_simp
  | importMore h d1 d2 ih1 ih2 =>
    subst h
    intro hd
    have g1 := ih1 hd.left
    have g2 := ih2 hd.right.tail
    refine ⟨fun hok b a hc hi ha => ?_, trivial⟩
    rename_i w1 _ _ _ _ _
    have hin : ∀ a, forgotten ((bare w1).reverse ++ b) .import_ a = true := by
      intro a
      cases w1 with
      | nil => exact absurd rfl (d1.ne_nil rfl)
      | cons t w1 =>
        have := d1.headed t w1 rfl
        have ht : t.tok = .import_ := by
          revert this
          cases t.tok <;> simp [Token.kind, heads, first]
        simp [forgotten, bare_cons, ht]
    refine (K.app (g1.1 rfl b _ hc.left hi (fun h => absurd h (by decide))) (K.drop (hin _)
      (g2.1 rfl _ a (Ctx.ofFine (E := false) (FineB.tok (by decide) (by decide) (by intro _ h; cases h) (by decide))
        d2 (.inl rfl)) (fun h => absurd h (by decide)) (fun h => absurd h (by decide))))).to ?_
    unparse_simp
  | importFirst h d1 ih1 =>
    subst h
    intro hd
    have g1 := ih1 (fun t ht => hd t (by simp [ht]))
    refine ⟨fun hok b a hc hi ha => ?_, trivial⟩
    refine (K.tok (by simpa [forgotten] using hi rfl) (g1.1 (by decide) _ _ (Ctx.ofFine (E := false) (FineB.tok (e := false) (t := .import_) (by decide) (by decide) (by intro _ h; cases h) (by decide)) d1 (by decide)) (fun h => absurd h (by decide)) (fun h => absurd h (by decide)))).to ?_
    first | rfl | unparse_simp
  | metaName d1 ih1 =>
    intro hd
    have g1 := ih1 (fun t ht => hd t (by simp [ht]))
    refine ⟨fun hok b a hc hi ha => ?_, trivial⟩
    refine (g1.1 (by decide) _ _ hc (fun h => absurd h (by decide)) (fun h => absurd h (by decide))).to ?_
    first | rfl | unparse_simp
  | metaNamespace h d1 d2 ih1 ih2 =>
    subst h
    intro hd
    have g1 := ih1 (fun t ht => hd t (by simp [ht]))
    have g2 := ih2 (fun t ht => hd t (by simp [ht]))
    refine ⟨fun hok b a hc hi ha => ?_, trivial⟩
    refine (K.app (g1.1 (by decide) _ _ hc.left (fun h => absurd h (by decide)) (fun h => absurd h (by decide))) (K.tok rfl (g2.1 (by decide) _ _ (Ctx.ofFine (E := false) (FineB.tok (e := false) (t := .dot) (by decide) (by decide) (by intro _ h; cases h) (by decide)) d2 (by decide)) (fun h => absurd h (by decide)) (fun h => absurd h (by decide))))).to ?_
    first | rfl | unparse_simp
  | metaHexspace h d1 d2 ih1 ih2 =>
    subst h
    intro hd
    have g1 := ih1 (fun t ht => hd t (by simp [ht]))
    have g2 := ih2 (fun t ht => hd t (by simp [ht]))
    refine ⟨fun hok b a hc hi ha => ?_, trivial⟩
    refine (K.app (g1.1 (by decide) _ _ hc.left (fun h => absurd h (by decide)) (fun h => absurd h (by decide))) (K.tok rfl (g2.1 (by decide) _ _ (Ctx.ofFine (E := false) (FineB.tok (e := false) (t := .dot) (by decide) (by decide) (by intro _ h; cases h) (by decide)) d2 (by decide)) (fun h => absurd h (by decide)) (fun h => absurd h (by decide))))).to ?_
    first | rfl | unparse_simp
  | metaByStr h =>
    subst h
    intro hd
    refine ⟨fun hok b a hc hi ha => ?_, trivial⟩
    refine (K.tok rfl K.nil).to ?_
    first | rfl | unparse_simp
  | varName d1 ih1 =>
    intro hd
    have g1 := ih1 (fun t ht => hd t (by simp [ht]))
    refine ⟨fun hok b a hc hi ha => ?_, trivial⟩
    refine (g1.1 (by decide) _ _ hc (fun h => absurd h (by decide)) (fun h => absurd h (by decide))).to ?_
    first | rfl | unparse_simp
  | varSpecial d1 ih1 =>
    intro hd
    have g1 := ih1 (fun t ht => hd t (by simp [ht]))
    refine ⟨fun hok b a hc hi ha => ?_, trivial⟩
    refine (g1.1 (by decide) _ _ hc (fun h => absurd h (by decide)) (fun h => absurd h (by decide))).to ?_
    first | rfl | unparse_simp
  | varNamespace h d1 d2 ih1 ih2 =>
    subst h
    intro hd
    have g1 := ih1 (fun t ht => hd t (by simp [ht]))
    have g2 := ih2 (fun t ht => hd t (by simp [ht]))
    refine ⟨fun hok b a hc hi ha => ?_, trivial⟩
    refine (K.app (g1.1 (by decide) _ _ hc.left (fun h => absurd h (by decide)) (fun h => absurd h (by decide))) (K.tok rfl (g2.1 (by decide) _ _ (Ctx.ofFine (E := false) (FineB.tok (e := false) (t := .dot) (by decide) (by decide) (by intro _ h; cases h) (by decide)) d2 (by decide)) (fun h => absurd h (by decide)) (fun h => absurd h (by decide))))).to ?_
    first | rfl | unparse_simp
  | builtinMore h d1 d2 ih1 ih2 =>
    subst h
    intro hd
    have g1 := ih1 hd.left
    have g2 := ih2 hd.right
    refine ⟨fun h => absurd h (by decide), fun b a hb => ?_⟩
    have f := d1.fine b (d1.ne_nil rfl) (argumentsBegin_nb hb).2
    have k1 := g1.2 b
    refine (K.app (k1 _ hb) (g2.1 rfl _ a (Ctx.ofFine f d2 (.inl rfl)) (fun h => absurd h (by decide))
      (fun h => absurd h (by decide)))).to ?_
    have hv := d2.startsVar (a := a)
    rename_i prev _
    by_cases he : prev.node.arguments = []
    · simp only [mkW, he, hv, unparse]; simp
    · simp [mkW, he, unparse]
  | builtinOne d1 ih1 =>
    intro hd
    have g1 := ih1 hd
    refine ⟨fun h => absurd h (by decide), fun b a hb => ?_⟩
    refine (g1.1 rfl b a ⟨fun h => absurd h (argumentsBegin_nb hb).1, (argumentsBegin_nb hb).2,
      fun _ => head_of d1 (by decide)⟩ (fun h => absurd h (by decide)) (fun h => absurd h (by decide))).to ?_
    simp [mkW, unparse]
  | builtinUnit h =>
    subst h
    intro hd
    refine ⟨fun h => absurd h (by decide), fun b a hb => ?_⟩
    by_cases hv : a.head?.any startsVariable = true
    · refine (K.drop ?_ (K.drop ?_ K.nil)).to (by simp only [mkW, hv]; simp)
      · simp [forgotten, hb, bare, hv]
      · simp [forgotten, hb, bare, hv]
    · refine (K.tok ?_ (K.tok ?_ K.nil)).to (by simp only [mkW, hv]; simp)
      · simp [forgotten, hb, bare, hv]
      · simp [forgotten, hb, bare, hv]
  | remGeneric h d1 d2 ih1 ih2 =>
    subst h
    intro hd
    have g1 := ih1 (fun t ht => hd t (by simp [ht]))
    have g2 := ih2 (fun t ht => hd t (by simp [ht]))
    refine ⟨fun hok b a hc hi ha => ?_, trivial⟩
    refine (K.app (g1.1 (by decide) _ _ hc.left (fun h => absurd h (by decide)) (fun h => absurd h (by decide))) (g2.1 (by decide) _ _ (Ctx.ofFine (E := (endsBrace .metaId)) (d1.fine _ (d1.ne_nil rfl) hc.2.1) d2 (by decide)) (fun h => absurd h (by decide)) (fun h => absurd h (by decide)))).to ?_
    first | rfl | unparse_simp
  | remMap h d1 d2 ih1 ih2 =>
    subst h
    intro hd
    have g1 := ih1 (fun t ht => hd t (by simp [ht]))
    have g2 := ih2 (fun t ht => hd t (by simp [ht]))
    refine ⟨fun hok b a hc hi ha => ?_, trivial⟩
    refine (K.tok rfl (K.app (g1.1 (by decide) _ _ (Ctx.ofFine (E := false) (FineB.tok (e := false) (t := .map) (by decide) (by decide) (by intro _ h; cases h) (by decide)) d1 (by decide)) (fun h => absurd h (by decide)) (fun h => absurd h (by decide))) (g2.1 (by decide) _ _ (Ctx.ofFine (E := (endsBrace .mapKey)) (d1.fine _ (d1.ne_nil rfl) (FineB.nb (FineB.tok (e := false) (t := .map) (by decide) (by decide) (by intro _ h; cases h) (by decide)))) d2 (by decide)) (fun h => absurd h (by decide)) (fun h => absurd h (by decide))))).to ?_
    first | rfl | unparse_simp
  | remParen h d1 ih1 =>
    subst h
    intro hd
    have g1 := ih1 (fun t ht => hd t (by simp [ht]))
    refine ⟨fun hok b a hc hi ha => ?_, trivial⟩
    refine (K.tok hc.noOpen (K.app (g1.1 (by decide) _ _ (Ctx.ofParen d1 (by decide)) (fun h => absurd h (by decide)) (fun h => absurd h (by decide))) (K.tok (FineB.noClose (d1.fine _ (d1.ne_nil rfl) (show NB (Token.openParen :: _) from by simp [NB]))) K.nil))).to ?_
    first | rfl | unparse_simp
  | remAddress d1 ih1 =>
    intro hd
    have g1 := ih1 (fun t ht => hd t (by simp [ht]))
    refine ⟨fun hok b a hc hi ha => ?_, trivial⟩
    refine (g1.1 (by decide) _ _ hc (fun h => absurd h (by decide)) (fun h => absurd h (by decide))).to ?_
    first | rfl | unparse_simp
  | remForall h d1 d2 ih1 ih2 =>
    subst h
    intro hd
    have g1 := ih1 (fun t ht => hd t (by simp [ht]))
    have g2 := ih2 (fun t ht => hd t (by simp [ht]))
    refine ⟨fun hok b a hc hi ha => ?_, trivial⟩
    refine (K.tok rfl (K.app (g1.1 (by decide) _ _ (Ctx.ofFine (E := false) (FineB.tok (e := false) (t := .forall_) (by decide) (by decide) (by intro _ h; cases h) (by decide)) d1 (by decide)) (fun h => absurd h (by decide)) (fun h => absurd h (by decide))) (K.tok rfl (g2.1 (by decide) _ _ (Ctx.ofFine (E := false) (FineB.tok (e := false) (t := .dot) (by decide) (by decide) (by intro _ h; cases h) (by decide)) d2 (by decide)) (fun h => absurd h (by decide)) (fun h => absurd h (by decide)))))).to ?_
    first | rfl | unparse_simp
  | remTypeVar d1 ih1 =>
    intro hd
    have g1 := ih1 (fun t ht => hd t (by simp [ht]))
    refine ⟨fun hok b a hc hi ha => ?_, trivial⟩
    refine (g1.1 (by decide) _ _ hc (fun h => absurd h (by decide)) (fun h => absurd h (by decide))).to ?_
    first | rfl | unparse_simp
  | funSigMore h d1 d2 ih1 ih2 =>
    subst h
    intro hd
    have g1 := ih1 (fun t ht => hd t (by simp [ht]))
    have g2 := ih2 (fun t ht => hd t (by simp [ht]))
    refine ⟨fun hok b a hc hi ha => ?_, trivial⟩
    refine (K.app (g1.1 (by decide) _ _ hc.left (fun h => absurd h (by decide)) (fun h => absurd h (by decide))) (K.tok rfl (g2.1 (by decide) _ _ (Ctx.ofFine (E := false) (FineB.tok (e := false) (t := .arrow) (by decide) (by decide) (by intro _ h; cases h) (by decide)) d2 (by decide)) (fun h => absurd h (by decide)) (fun h => absurd h (by decide))))).to ?_
    first | rfl | unparse_simp
  | funSigLast h d1 d2 ih1 ih2 =>
    subst h
    intro hd
    have g1 := ih1 (fun t ht => hd t (by simp [ht]))
    have g2 := ih2 (fun t ht => hd t (by simp [ht]))
    refine ⟨fun hok b a hc hi ha => ?_, trivial⟩
    refine (K.app (g1.1 (by decide) _ _ hc.left (fun h => absurd h (by decide)) (fun h => absurd h (by decide))) (K.tok rfl (g2.1 (by decide) _ _ (Ctx.ofFine (E := false) (FineB.tok (e := false) (t := .arrow) (by decide) (by decide) (by intro _ h; cases h) (by decide)) d2 (by decide)) (fun h => absurd h (by decide)) (fun h => absurd h (by decide))))).to ?_
    first | rfl | unparse_simp
  | typeFun d1 ih1 =>
    intro hd
    have g1 := ih1 (fun t ht => hd t (by simp [ht]))
    refine ⟨fun hok b a hc hi ha => ?_, trivial⟩
    refine (g1.1 (by decide) _ _ hc (fun h => absurd h (by decide)) (fun h => absurd h (by decide))).to ?_
    first | rfl | unparse_simp
  | typeRem d1 ih1 =>
    intro hd
    have g1 := ih1 (fun t ht => hd t (by simp [ht]))
    refine ⟨fun hok b a hc hi ha => ?_, trivial⟩
    refine (g1.1 (by decide) _ _ hc (fun h => absurd h (by decide)) (fun h => absurd h (by decide))).to ?_
    first | rfl | unparse_simp
  | argParen h d1 ih1 =>
    subst h
    intro hd
    have g1 := ih1 (fun t ht => hd t (by simp [ht]))
    refine ⟨fun hok b a hc hi ha => ?_, trivial⟩
    refine (K.tok hc.noOpen (K.app (g1.1 (by decide) _ _ (Ctx.ofParen d1 (by decide)) (fun h => absurd h (by decide)) (fun h => absurd h (by decide))) (K.tok (FineB.noClose (d1.fine _ (d1.ne_nil rfl) (show NB (Token.openParen :: _) from by simp [NB]))) K.nil))).to ?_
    first | rfl | unparse_simp
  | argMeta d1 ih1 =>
    intro hd
    have g1 := ih1 (fun t ht => hd t (by simp [ht]))
    refine ⟨fun hok b a hc hi ha => ?_, trivial⟩
    refine (g1.1 (by decide) _ _ hc (fun h => absurd h (by decide)) (fun h => absurd h (by decide))).to ?_
    first | rfl | unparse_simp
  | argTemplate d1 ih1 =>
    intro hd
    have g1 := ih1 (fun t ht => hd t (by simp [ht]))
    refine ⟨fun hok b a hc hi ha => ?_, trivial⟩
    refine (g1.1 (by decide) _ _ hc (fun h => absurd h (by decide)) (fun h => absurd h (by decide))).to ?_
    first | rfl | unparse_simp
  | argAddress d1 ih1 =>
    intro hd
    have g1 := ih1 (fun t ht => hd t (by simp [ht]))
    refine ⟨fun hok b a hc hi ha => ?_, trivial⟩
    refine (g1.1 (by decide) _ _ hc (fun h => absurd h (by decide)) (fun h => absurd h (by decide))).to ?_
    first | rfl | unparse_simp
  | argMap h d1 d2 ih1 ih2 =>
    subst h
    intro hd
    have g1 := ih1 (fun t ht => hd t (by simp [ht]))
    have g2 := ih2 (fun t ht => hd t (by simp [ht]))
    refine ⟨fun hok b a hc hi ha => ?_, trivial⟩
    refine (K.tok rfl (K.app (g1.1 (by decide) _ _ (Ctx.ofFine (E := false) (FineB.tok (e := false) (t := .map) (by decide) (by decide) (by intro _ h; cases h) (by decide)) d1 (by decide)) (fun h => absurd h (by decide)) (fun h => absurd h (by decide))) (g2.1 (by decide) _ _ (Ctx.ofFine (E := (endsBrace .mapKey)) (d1.fine _ (d1.ne_nil rfl) (FineB.nb (FineB.tok (e := false) (t := .map) (by decide) (by decide) (by intro _ h; cases h) (by decide)))) d2 (by decide)) (fun h => absurd h (by decide)) (fun h => absurd h (by decide))))).to ?_
    first | rfl | unparse_simp
  | addrEmpty h d1 ih1 =>
    subst h
    intro hd
    have g1 := ih1 (fun t ht => hd t (by simp [ht]))
    refine ⟨fun hok b a hc hi ha => ?_, trivial⟩
    refine (K.app (g1.1 (by decide) _ _ hc.left (fun h => absurd h (by decide)) (fun h => absurd h (by decide))) (K.tok rfl (K.tok rfl K.nil))).to ?_
    first | rfl | unparse_simp
  | addrContract h d1 d2 ih1 ih2 =>
    subst h
    intro hd
    have g1 := ih1 (fun t ht => hd t (by simp [ht]))
    have g2 := ih2 (fun t ht => hd t (by simp [ht]))
    refine ⟨fun hok b a hc hi ha => ?_, trivial⟩
    rename_i fs _ _ _ _ _ _
    refine (K.app (g1.1 (by decide) _ _ hc.left (fun h => absurd h (by decide)) (fun h => absurd h (by decide))) (K.tok rfl (K.tok rfl (K.app (g2.1 (by decide) _ _ (Ctx.ofFine (E := false) (FineB.tok (e := false) (t := .contract) (by decide) (by decide) (by intro _ h; cases h) (by decide)) d2 (by decide)) (fun h => absurd h (by decide)) (fun h => absurd h (by decide))) (K.tok rfl K.nil))))).to ?_
    cases fs <;> unparse_simp
  | addrLibrary h d1 ih1 =>
    subst h
    intro hd
    have g1 := ih1 (fun t ht => hd t (by simp [ht]))
    refine ⟨fun hok b a hc hi ha => ?_, trivial⟩
    refine (K.app (g1.1 (by decide) _ _ hc.left (fun h => absurd h (by decide)) (fun h => absurd h (by decide))) (K.tok rfl (K.tok rfl (K.tok rfl K.nil)))).to ?_
    first | rfl | unparse_simp
  | addrSpecial h d1 d2 ih1 ih2 =>
    subst h
    intro hd
    have g1 := ih1 (fun t ht => hd t (by simp [ht]))
    have g2 := ih2 (fun t ht => hd t (by simp [ht]))
    refine ⟨fun hok b a hc hi ha => ?_, trivial⟩
    cases d2 with | specialId hs =>
    subst hs
    obtain ⟨q1, q2, q3⟩ := hd _ (List.mem_append_right _ (List.mem_cons_of_mem _ List.mem_cons_self)) _ rfl
    refine (K.app (g1.1 (by decide) _ _ hc.left (fun h => absurd h (by decide)) (fun h => absurd h (by decide))) (K.tok rfl (K.tok rfl (K.tok rfl K.nil)))).to ?_
    simp [unparse, mkW, NodeAddressType.toks, addressTag, q1, q2, q3]
  | addrFieldList h d1 d2 ih1 ih2 =>
    subst h
    intro hd
    have g1 := ih1 (fun t ht => hd t (by simp [ht]))
    have g2 := ih2 (fun t ht => hd t (by simp [ht]))
    refine ⟨fun hok b a hc hi ha => ?_, trivial⟩
    refine (K.app (g1.1 (by decide) _ _ hc.left (fun h => absurd h (by decide)) (fun h => absurd h (by decide))) (g2.1 (by decide) _ _ (Ctx.ofFine (E := (endsBrace .addressField)) (d1.fine _ (d1.ne_nil rfl) hc.2.1) d2 (by decide)) (fun h => absurd h (by decide)) (fun h => absurd h (by decide)))).to ?_
    first | rfl | unparse_simp
  | nextAddrField h d1 ih1 =>
    subst h
    intro hd
    have g1 := ih1 (fun t ht => hd t (by simp [ht]))
    refine ⟨fun hok b a hc hi ha => ?_, trivial⟩
    refine (K.tok hc.noComma (g1.1 (by decide) _ _ (Ctx.ofFine (E := false) (FineB.tok (e := false) (t := .comma) (by decide) (by decide) (by intro _ h; cases h) (by decide)) d1 (by decide)) (fun h => absurd h (by decide)) (fun h => absurd h (by decide)))).to ?_
    first | rfl | unparse_simp
  | addrField h d1 d2 ih1 ih2 =>
    subst h
    intro hd
    have g1 := ih1 (fun t ht => hd t (by simp [ht]))
    have g2 := ih2 (fun t ht => hd t (by simp [ht]))
    refine ⟨fun hok b a hc hi ha => ?_, trivial⟩
    refine (K.tok rfl (K.app (g1.1 (by decide) _ _ (Ctx.ofFine (E := false) (FineB.tok (e := false) (t := .field) (by decide) (by decide) (by intro _ h; cases h) (by decide)) d1 (by decide)) (fun h => absurd h (by decide)) (fun h => absurd h (by decide))) (K.tok rfl (g2.1 (by decide) _ _ (Ctx.ofFine (E := false) (FineB.tok (e := false) (t := .colon) (by decide) (by decide) (by intro _ h; cases h) (by decide)) d2 (by decide)) (fun h => absurd h (by decide)) (fun h => absurd h (by decide)))))).to ?_
    first | rfl | unparse_simp
  | keyMeta d1 ih1 =>
    intro hd
    have g1 := ih1 (fun t ht => hd t (by simp [ht]))
    refine ⟨fun hok b a hc hi ha => ?_, trivial⟩
    refine (g1.1 (by decide) _ _ hc (fun h => absurd h (by decide)) (fun h => absurd h (by decide))).to ?_
    first | rfl | unparse_simp
  | keyParenMeta h d1 ih1 =>
    subst h
    intro hd
    have g1 := ih1 (fun t ht => hd t (by simp [ht]))
    refine ⟨fun hok b a hc hi ha => ?_, trivial⟩
    refine (K.tok hc.noOpen (K.app (g1.1 (by decide) _ _ (Ctx.ofParen d1 (by decide)) (fun h => absurd h (by decide)) (fun h => absurd h (by decide))) (K.tok (FineB.noClose (d1.fine _ (d1.ne_nil rfl) (show NB (Token.openParen :: _) from by simp [NB]))) K.nil))).to ?_
    first | rfl | unparse_simp
  | keyParenAddress h d1 ih1 =>
    subst h
    intro hd
    have g1 := ih1 (fun t ht => hd t (by simp [ht]))
    refine ⟨fun hok b a hc hi ha => ?_, trivial⟩
    refine (K.tok hc.noOpen (K.app (g1.1 (by decide) _ _ (Ctx.ofParen d1 (by decide)) (fun h => absurd h (by decide)) (fun h => absurd h (by decide))) (K.tok (FineB.noClose (d1.fine _ (d1.ne_nil rfl) (show NB (Token.openParen :: _) from by simp [NB]))) K.nil))).to ?_
    first | rfl | unparse_simp
  | keyAddress d1 ih1 =>
    intro hd
    have g1 := ih1 (fun t ht => hd t (by simp [ht]))
    refine ⟨fun hok b a hc hi ha => ?_, trivial⟩
    refine (g1.1 (by decide) _ _ hc (fun h => absurd h (by decide)) (fun h => absurd h (by decide))).to ?_
    first | rfl | unparse_simp
  | valMeta d1 ih1 =>
    intro hd
    have g1 := ih1 (fun t ht => hd t (by simp [ht]))
    refine ⟨fun hok b a hc hi ha => ?_, trivial⟩
    refine (g1.1 (by decide) _ _ hc (fun h => absurd h (by decide)) (fun h => absurd h (by decide))).to ?_
    first | rfl | unparse_simp
  | valMap h d1 d2 ih1 ih2 =>
    subst h
    intro hd
    have g1 := ih1 (fun t ht => hd t (by simp [ht]))
    have g2 := ih2 (fun t ht => hd t (by simp [ht]))
    refine ⟨fun hok b a hc hi ha => ?_, trivial⟩
    refine (K.tok rfl (K.app (g1.1 (by decide) _ _ (Ctx.ofFine (E := false) (FineB.tok (e := false) (t := .map) (by decide) (by decide) (by intro _ h; cases h) (by decide)) d1 (by decide)) (fun h => absurd h (by decide)) (fun h => absurd h (by decide))) (g2.1 (by decide) _ _ (Ctx.ofFine (E := (endsBrace .mapKey)) (d1.fine _ (d1.ne_nil rfl) (FineB.nb (FineB.tok (e := false) (t := .map) (by decide) (by decide) (by intro _ h; cases h) (by decide)))) d2 (by decide)) (fun h => absurd h (by decide)) (fun h => absurd h (by decide))))).to ?_
    first | rfl | unparse_simp
  | valParen h d1 ih1 =>
    subst h
    intro hd
    have g1 := ih1 (fun t ht => hd t (by simp [ht]))
    refine ⟨fun hok b a hc hi ha => ?_, trivial⟩
    refine (K.tok hc.noOpen (K.app (g1.1 (by decide) _ _ (Ctx.ofParen d1 (by decide)) (fun h => absurd h (by decide)) (fun h => absurd h (by decide))) (K.tok (FineB.noClose (d1.fine _ (d1.ne_nil rfl) (show NB (Token.openParen :: _) from by simp [NB]))) K.nil))).to ?_
    first | rfl | unparse_simp
  | valAddress d1 ih1 =>
    intro hd
    have g1 := ih1 (fun t ht => hd t (by simp [ht]))
    refine ⟨fun hok b a hc hi ha => ?_, trivial⟩
    refine (g1.1 (by decide) _ _ hc (fun h => absurd h (by decide)) (fun h => absurd h (by decide))).to ?_
    first | rfl | unparse_simp
  | mvaParen h d1 ih1 =>
    subst h
    intro hd
    have g1 := ih1 (fun t ht => hd t (by simp [ht]))
    refine ⟨fun hok b a hc hi ha => ?_, trivial⟩
    refine (K.tok hc.noOpen (K.app (g1.1 (by decide) _ _ (Ctx.ofParen d1 (by decide)) (fun h => absurd h (by decide)) (fun h => absurd h (by decide))) (K.tok (FineB.noClose (d1.fine _ (d1.ne_nil rfl) (show NB (Token.openParen :: _) from by simp [NB]))) K.nil))).to ?_
    first | rfl | unparse_simp
  | mvaMeta d1 ih1 =>
    intro hd
    have g1 := ih1 (fun t ht => hd t (by simp [ht]))
    refine ⟨fun hok b a hc hi ha => ?_, trivial⟩
    refine (g1.1 (by decide) _ _ hc (fun h => absurd h (by decide)) (fun h => absurd h (by decide))).to ?_
    first | rfl | unparse_simp
  | mvaMap h d1 d2 ih1 ih2 =>
    subst h
    intro hd
    have g1 := ih1 (fun t ht => hd t (by simp [ht]))
    have g2 := ih2 (fun t ht => hd t (by simp [ht]))
    refine ⟨fun hok b a hc hi ha => ?_, trivial⟩
    refine (K.tok rfl (K.app (g1.1 (by decide) _ _ (Ctx.ofFine (E := false) (FineB.tok (e := false) (t := .map) (by decide) (by decide) (by intro _ h; cases h) (by decide)) d1 (by decide)) (fun h => absurd h (by decide)) (fun h => absurd h (by decide))) (g2.1 (by decide) _ _ (Ctx.ofFine (E := (endsBrace .mapKey)) (d1.fine _ (d1.ne_nil rfl) (FineB.nb (FineB.tok (e := false) (t := .map) (by decide) (by decide) (by intro _ h; cases h) (by decide)))) d2 (by decide)) (fun h => absurd h (by decide)) (fun h => absurd h (by decide))))).to ?_
    first | rfl | unparse_simp
  | program h d1 d2 d3 d4 ih1 ih2 ih3 ih4 =>
    subst h
    intro hd
    have g1 := ih1 (fun t ht => hd t (by simp [ht]))
    have g2 := ih2 (fun t ht => hd t (by simp [ht]))
    have g3 := ih3 (fun t ht => hd t (by simp [ht]))
    have g4 := ih4 (fun t ht => hd t (by simp [ht]))
    refine ⟨fun hok b a hc hi ha => ?_, trivial⟩
    rename_i w1 _ _ _ _ _ _ _ _ _
    have himp : Token.import_ ∉ (bare w1).reverse ++ Token.scillaVersion :: b := by
      cases d1 with | signedInt hs =>
      subst hs
      have := hi rfl
      simp [bare, this]
    refine (K.tok rfl (K.app (g1.1 (by decide) _ _ (Ctx.ofFine (E := false) (FineB.tok (e := false) (t := .scillaVersion) (by decide) (by decide) (by intro _ h; cases h) (by decide)) d1 (by decide)) (fun h => absurd h (by decide)) (fun h => absurd h (by decide))) (K.app (g2.1 (by decide) _ _ (Ctx.ofFine (E := (endsBrace .signedInt)) (d1.fine _ (d1.ne_nil rfl) (FineB.nb (FineB.tok (e := false) (t := .scillaVersion) (by decide) (by decide) (by intro _ h; cases h) (by decide)))) d2 (by decide)) (fun _ => himp) (fun h => absurd h (by decide))) (K.app (g3.1 (by decide) _ _ (Ctx.ofFine (E := ((endsBrace .signedInt) || endsBrace (.opt .importDecls))) (FineB.step (e := ((endsBrace .signedInt) || endsBrace (.opt .importDecls))) (d1.fine _ (d1.ne_nil rfl) (FineB.nb (FineB.tok (e := false) (t := .scillaVersion) (by decide) (by decide) (by intro _ h; cases h) (by decide)))) (d2.fine _) (by decide)) d3 (by decide)) (fun h => absurd h (by decide)) (fun _ => (NotVar.app d4 (by decide) (ha rfl)))) (g4.1 (by decide) _ _ (Ctx.ofFine (E := (((endsBrace .signedInt) || endsBrace (.opt .importDecls)) || endsBrace (.opt .libraryDef))) (FineB.step (e := (((endsBrace .signedInt) || endsBrace (.opt .importDecls)) || endsBrace (.opt .libraryDef))) (FineB.step (e := ((endsBrace .signedInt) || endsBrace (.opt .importDecls))) (d1.fine _ (d1.ne_nil rfl) (FineB.nb (FineB.tok (e := false) (t := .scillaVersion) (by decide) (by decide) (by intro _ h; cases h) (by decide)))) (d2.fine _) (by decide)) (d3.fine _) (by decide)) d4 (by decide)) (fun h => absurd h (by decide)) (fun _ => (ha rfl))))))).to ?_
    first | rfl | unparse_simp
  | libraryDef h d1 d2 ih1 ih2 =>
    subst h
    intro hd
    have g1 := ih1 (fun t ht => hd t (by simp [ht]))
    have g2 := ih2 (fun t ht => hd t (by simp [ht]))
    refine ⟨fun hok b a hc hi ha => ?_, trivial⟩
    refine (K.tok rfl (K.app (g1.1 (by decide) _ _ (Ctx.ofFine (E := false) (FineB.tok (e := false) (t := .library) (by decide) (by decide) (by intro _ h; cases h) (by decide)) d1 (by decide)) (fun h => absurd h (by decide)) (fun h => absurd h (by decide))) (g2.1 (by decide) _ _ (Ctx.ofFine (E := (endsBrace .typeName)) (d1.fine _ (d1.ne_nil rfl) (FineB.nb (FineB.tok (e := false) (t := .library) (by decide) (by decide) (by intro _ h; cases h) (by decide)))) d2 (by decide)) (fun h => absurd h (by decide)) (fun _ => (ha rfl))))).to ?_
    first | rfl | unparse_simp
  | libLet h d1 d2 d3 ih1 ih2 ih3 =>
    subst h
    intro hd
    have g1 := ih1 (fun t ht => hd t (by simp [ht]))
    have g2 := ih2 (fun t ht => hd t (by simp [ht]))
    have g3 := ih3 (fun t ht => hd t (by simp [ht]))
    refine ⟨fun hok b a hc hi ha => ?_, trivial⟩
    refine (K.tok rfl (K.app (g1.1 (by decide) _ _ (Ctx.ofFine (E := false) (FineB.tok (e := false) (t := .let_) (by decide) (by decide) (by intro _ h; cases h) (by decide)) d1 (by decide)) (fun h => absurd h (by decide)) (fun h => absurd h (by decide))) (K.app (g2.1 (by decide) _ _ (Ctx.ofFine (E := (endsBrace .regularId)) (d1.fine _ (d1.ne_nil rfl) (FineB.nb (FineB.tok (e := false) (t := .let_) (by decide) (by decide) (by intro _ h; cases h) (by decide)))) d2 (by decide)) (fun h => absurd h (by decide)) (fun h => absurd h (by decide))) (K.tok rfl (g3.1 (by decide) _ _ (Ctx.ofFine (E := false) (FineB.tok (e := false) (t := .equals) (by decide) (by decide) (by intro _ h; cases h) (by decide)) d3 (by decide)) (fun h => absurd h (by decide)) (fun _ => (ha rfl))))))).to ?_
    first | rfl | unparse_simp
  | libType h d1 ih1 =>
    subst h
    intro hd
    have g1 := ih1 (fun t ht => hd t (by simp [ht]))
    refine ⟨fun hok b a hc hi ha => ?_, trivial⟩
    refine (K.tok rfl (g1.1 (by decide) _ _ (Ctx.ofFine (E := false) (FineB.tok (e := false) (t := .type) (by decide) (by decide) (by intro _ h; cases h) (by decide)) d1 (by decide)) (fun h => absurd h (by decide)) (fun h => absurd h (by decide)))).to ?_
    first | rfl | unparse_simp
  | libTypeAlts h d1 d2 ih1 ih2 =>
    subst h
    intro hd
    have g1 := ih1 (fun t ht => hd t (by simp [ht]))
    have g2 := ih2 (fun t ht => hd t (by simp [ht]))
    refine ⟨fun hok b a hc hi ha => ?_, trivial⟩
    refine (K.tok rfl (K.app (g1.1 (by decide) _ _ (Ctx.ofFine (E := false) (FineB.tok (e := false) (t := .type) (by decide) (by decide) (by intro _ h; cases h) (by decide)) d1 (by decide)) (fun h => absurd h (by decide)) (fun h => absurd h (by decide))) (K.tok rfl (g2.1 (by decide) _ _ (Ctx.ofFine (E := false) (FineB.tok (e := false) (t := .equals) (by decide) (by decide) (by intro _ h; cases h) (by decide)) d2 (by decide)) (fun h => absurd h (by decide)) (fun h => absurd h (by decide)))))).to ?_
    first | rfl | unparse_simp
  | typedId h d1 d2 ih1 ih2 =>
    subst h
    intro hd
    have g1 := ih1 (fun t ht => hd t (by simp [ht]))
    have g2 := ih2 (fun t ht => hd t (by simp [ht]))
    refine ⟨fun hok b a hc hi ha => ?_, trivial⟩
    refine (K.app (g1.1 (by decide) _ _ hc.left (fun h => absurd h (by decide)) (fun h => absurd h (by decide))) (g2.1 (by decide) _ _ (Ctx.ofFine (E := (endsBrace .regularId)) (d1.fine _ (d1.ne_nil rfl) hc.2.1) d2 (by decide)) (fun h => absurd h (by decide)) (fun h => absurd h (by decide)))).to ?_
    first | rfl | unparse_simp
  | typeAnn h d1 ih1 =>
    subst h
    intro hd
    have g1 := ih1 (fun t ht => hd t (by simp [ht]))
    refine ⟨fun hok b a hc hi ha => ?_, trivial⟩
    refine (K.tok rfl (g1.1 (by decide) _ _ (Ctx.ofFine (E := false) (FineB.tok (e := false) (t := .colon) (by decide) (by decide) (by intro _ h; cases h) (by decide)) d1 (by decide)) (fun h => absurd h (by decide)) (fun h => absurd h (by decide)))).to ?_
    first | rfl | unparse_simp
  | altType h d1 ih1 =>
    subst h
    intro hd
    have g1 := ih1 (fun t ht => hd t (by simp [ht]))
    refine ⟨fun hok b a hc hi ha => ?_, trivial⟩
    refine (K.tok rfl (g1.1 (by decide) _ _ (Ctx.ofFine (E := false) (FineB.tok (e := false) (t := .pipe) (by decide) (by decide) (by intro _ h; cases h) (by decide)) d1 (by decide)) (fun h => absurd h (by decide)) (fun h => absurd h (by decide)))).to ?_
    first | rfl | unparse_simp
  | altTypeArgs h d1 d2 ih1 ih2 =>
    subst h
    intro hd
    have g1 := ih1 (fun t ht => hd t (by simp [ht]))
    have g2 := ih2 (fun t ht => hd t (by simp [ht]))
    refine ⟨fun hok b a hc hi ha => ?_, trivial⟩
    refine (K.tok rfl (K.app (g1.1 (by decide) _ _ (Ctx.ofFine (E := false) (FineB.tok (e := false) (t := .pipe) (by decide) (by decide) (by intro _ h; cases h) (by decide)) d1 (by decide)) (fun h => absurd h (by decide)) (fun h => absurd h (by decide))) (K.tok rfl (g2.1 (by decide) _ _ (Ctx.ofFine (E := false) (FineB.tok (e := false) (t := .of_) (by decide) (by decide) (by intro _ h; cases h) (by decide)) d2 (by decide)) (fun h => absurd h (by decide)) (fun h => absurd h (by decide)))))).to ?_
    first | rfl | unparse_simp
  | mvWithArgs h d1 d2 ih1 ih2 =>
    subst h
    intro hd
    have g1 := ih1 (fun t ht => hd t (by simp [ht]))
    have g2 := ih2 (fun t ht => hd t (by simp [ht]))
    refine ⟨fun hok b a hc hi ha => ?_, trivial⟩
    refine (K.app (g1.1 (by decide) _ _ hc.left (fun h => absurd h (by decide)) (fun h => absurd h (by decide))) (g2.1 (by decide) _ _ (Ctx.ofFine (E := (endsBrace .metaId)) (d1.fine _ (d1.ne_nil rfl) hc.2.1) d2 (by decide)) (fun h => absurd h (by decide)) (fun h => absurd h (by decide)))).to ?_
    first | rfl | unparse_simp
  | mvNoArgs d1 ih1 =>
    intro hd
    have g1 := ih1 (fun t ht => hd t (by simp [ht]))
    refine ⟨fun hok b a hc hi ha => ?_, trivial⟩
    refine (g1.1 (by decide) _ _ hc (fun h => absurd h (by decide)) (fun h => absurd h (by decide))).to ?_
    first | rfl | unparse_simp
  | contractTypeArgs h d1 ih1 =>
    subst h
    intro hd
    have g1 := ih1 (fun t ht => hd t (by simp [ht]))
    refine ⟨fun hok b a hc hi ha => ?_, trivial⟩
    refine (K.tok rfl (K.app (g1.1 (by decide) _ _ (Ctx.ofFine (E := false) (FineB.tok (e := false) (t := .openBrace) (by decide) (by decide) (by intro _ h; cases h) (by decide)) d1 (by decide)) (fun h => absurd h (by decide)) (fun h => absurd h (by decide))) (K.tok rfl K.nil))).to ?_
    first | rfl | unparse_simp
  | exprLet h d1 d2 d3 d4 ih1 ih2 ih3 ih4 =>
    subst h
    intro hd
    have g1 := ih1 (fun t ht => hd t (by simp [ht]))
    have g2 := ih2 (fun t ht => hd t (by simp [ht]))
    have g3 := ih3 (fun t ht => hd t (by simp [ht]))
    have g4 := ih4 (fun t ht => hd t (by simp [ht]))
    refine ⟨fun hok b a hc hi ha => ?_, trivial⟩
    refine (K.tok rfl (K.app (g1.1 (by decide) _ _ (Ctx.ofFine (E := false) (FineB.tok (e := false) (t := .let_) (by decide) (by decide) (by intro _ h; cases h) (by decide)) d1 (by decide)) (fun h => absurd h (by decide)) (fun h => absurd h (by decide))) (K.app (g2.1 (by decide) _ _ (Ctx.ofFine (E := (endsBrace .regularId)) (d1.fine _ (d1.ne_nil rfl) (FineB.nb (FineB.tok (e := false) (t := .let_) (by decide) (by decide) (by intro _ h; cases h) (by decide)))) d2 (by decide)) (fun h => absurd h (by decide)) (fun h => absurd h (by decide))) (K.tok rfl (K.app (g3.1 (by decide) _ _ (Ctx.ofFine (E := false) (FineB.tok (e := false) (t := .equals) (by decide) (by decide) (by intro _ h; cases h) (by decide)) d3 (by decide)) (fun h => absurd h (by decide)) (fun _ => (NotVar.tok rfl))) (K.tok rfl (g4.1 (by decide) _ _ (Ctx.ofFine (E := false) (FineB.tok (e := false) (t := .in_) (by decide) (by decide) (by intro _ h; cases h) (by decide)) d4 (by decide)) (fun h => absurd h (by decide)) (fun _ => (ha rfl))))))))).to ?_
    first | rfl | unparse_simp
  | exprFun h d1 d2 d3 ih1 ih2 ih3 =>
    subst h
    intro hd
    have g1 := ih1 (fun t ht => hd t (by simp [ht]))
    have g2 := ih2 (fun t ht => hd t (by simp [ht]))
    have g3 := ih3 (fun t ht => hd t (by simp [ht]))
    refine ⟨fun hok b a hc hi ha => ?_, trivial⟩
    refine (K.tok rfl (K.tok rfl (K.app (g1.1 (by decide) _ _ (Ctx.ofParen d1 (by decide)) (fun h => absurd h (by decide)) (fun h => absurd h (by decide))) (K.app (g2.1 (by decide) _ _ (Ctx.ofFine (E := (endsBrace .regularId)) (d1.fine _ (d1.ne_nil rfl) (show NB (Token.openParen :: _) from by simp [NB])) d2 (by decide)) (fun h => absurd h (by decide)) (fun h => absurd h (by decide))) (K.tok (FineB.noClose (d2.fine _ (d2.ne_nil rfl) (FineB.nb (d1.fine _ (d1.ne_nil rfl) (show NB (Token.openParen :: _) from by simp [NB]))))) (K.tok rfl (g3.1 (by decide) _ _ (Ctx.ofFine (E := false) (FineB.tok (e := false) (t := .doubleArrow) (by decide) (by decide) (by intro _ h; cases h) (by decide)) d3 (by decide)) (fun h => absurd h (by decide)) (fun _ => (ha rfl))))))))).to ?_
    first | rfl | unparse_simp
  | exprCall h d1 d2 ih1 ih2 =>
    subst h
    intro hd
    have g1 := ih1 (fun t ht => hd t (by simp [ht]))
    have g2 := ih2 (fun t ht => hd t (by simp [ht]))
    refine ⟨fun hok b a hc hi ha => ?_, trivial⟩
    refine (K.app (g1.1 (by decide) _ _ hc.left (fun h => absurd h (by decide)) (fun h => absurd h (by decide))) (g2.1 (by decide) _ _ (Ctx.ofFine (E := (endsBrace .varId)) (d1.fine _ (d1.ne_nil rfl) hc.2.1) d2 (by decide)) (fun h => absurd h (by decide)) (fun h => absurd h (by decide)))).to ?_
    first | rfl | unparse_simp
  | exprAtomic d1 ih1 =>
    intro hd
    have g1 := ih1 (fun t ht => hd t (by simp [ht]))
    refine ⟨fun hok b a hc hi ha => ?_, trivial⟩
    refine (g1.1 (by decide) _ _ hc (fun h => absurd h (by decide)) (fun h => absurd h (by decide))).to ?_
    first | rfl | unparse_simp
  | exprBuiltin h d1 d2 d3 ih1 ih2 ih3 =>
    subst h
    intro hd
    rename_i w1 w2 w3 b0 targs xs _ _
    have g2 := ih2 (fun t ht => hd t (by simp [ht]))
    have g3 := ih3 (fun t ht => hd t (by simp [ht]))
    refine ⟨fun hok b a hc hi ha => ?_, trivial⟩
    cases d1 with | regularId hr =>
    subst hr
    rename_i x _ _
    have hab : argumentsBegin ((bare w2).reverse ++ .identifier x :: .builtin :: b) = true := by
      cases d2 with
      | optNone => rfl
      | optSome d2 =>
        cases d2 with
        | contractTypeArgs h _ => subst h; simp [bare, argumentsBegin]
    have k2 := fun a => g2.1 (by decide) (.identifier x :: .builtin :: b) a
      ⟨fun h => by simp at h, by simp [NB], fun _ => head_of d2 (by decide)⟩
      (fun h => absurd h (by decide)) (fun h => absurd h (by decide))
    have k3 := g3.2 _ a hab
    refine (K.tok rfl (K.tok rfl (K.app (k2 _) k3))).to ?_
    have := ha rfl
    simp only [NotVar] at this
    simp [unparse, mkW, NodeFullExpression.toks, NodeBuiltinArguments.toks, this]
  | exprMessage h d1 d2 ih1 ih2 =>
    subst h
    intro hd
    have g1 := ih1 (fun t ht => hd t (by simp [ht]))
    have g2 := ih2 (fun t ht => hd t (by simp [ht]))
    refine ⟨fun hok b a hc hi ha => ?_, trivial⟩
    refine (K.tok rfl (K.app (g1.1 (by decide) _ _ (Ctx.ofFine (E := false) (FineB.tok (e := false) (t := .openBrace) (by decide) (by decide) (by intro _ h; cases h) (by decide)) d1 (by decide)) (fun h => absurd h (by decide)) (fun h => absurd h (by decide))) (K.app (g2.1 (by decide) _ _ (Ctx.ofFine (E := (endsBrace .messageEntry)) (d1.fine _ (d1.ne_nil rfl) (FineB.nb (FineB.tok (e := false) (t := .openBrace) (by decide) (by decide) (by intro _ h; cases h) (by decide)))) d2 (by decide)) (fun h => absurd h (by decide)) (fun h => absurd h (by decide))) (K.tok rfl K.nil)))).to ?_
    first | rfl | unparse_simp
  | exprMatch h d1 d2 ih1 ih2 =>
    subst h
    intro hd
    have g1 := ih1 (fun t ht => hd t (by simp [ht]))
    have g2 := ih2 (fun t ht => hd t (by simp [ht]))
    refine ⟨fun hok b a hc hi ha => ?_, trivial⟩
    refine (K.tok rfl (K.app (g1.1 (by decide) _ _ (Ctx.ofFine (E := false) (FineB.tok (e := false) (t := .match_) (by decide) (by decide) (by intro _ h; cases h) (by decide)) d1 (by decide)) (fun h => absurd h (by decide)) (fun h => absurd h (by decide))) (K.tok rfl (K.app (g2.1 (by decide) _ _ (Ctx.ofFine (E := false) (FineB.tok (e := false) (t := .with_) (by decide) (by decide) (by intro _ h; cases h) (by decide)) d2 (by decide)) (fun h => absurd h (by decide)) (fun _ => (NotVar.tok rfl))) (K.tok rfl K.nil))))).to ?_
    first | rfl | unparse_simp
  | exprConstr h d1 d2 d3 ih1 ih2 ih3 =>
    subst h
    intro hd
    have g1 := ih1 (fun t ht => hd t (by simp [ht]))
    have g2 := ih2 (fun t ht => hd t (by simp [ht]))
    have g3 := ih3 (fun t ht => hd t (by simp [ht]))
    refine ⟨fun hok b a hc hi ha => ?_, trivial⟩
    refine (K.app (g1.1 (by decide) _ _ hc.left (fun h => absurd h (by decide)) (fun h => absurd h (by decide))) (K.app (g2.1 (by decide) _ _ (Ctx.ofFine (E := (endsBrace .metaId)) (d1.fine _ (d1.ne_nil rfl) hc.2.1) d2 (by decide)) (fun h => absurd h (by decide)) (fun h => absurd h (by decide))) (g3.1 (by decide) _ _ (Ctx.ofFine (E := ((endsBrace .metaId) || endsBrace (.opt .contractTypeArgs))) (FineB.step (e := ((endsBrace .metaId) || endsBrace (.opt .contractTypeArgs))) (d1.fine _ (d1.ne_nil rfl) hc.2.1) (d2.fine _) (by decide)) d3 (by decide)) (fun h => absurd h (by decide)) (fun h => absurd h (by decide))))).to ?_
    first | rfl | unparse_simp
  | exprTFun h d1 d2 ih1 ih2 =>
    subst h
    intro hd
    have g1 := ih1 (fun t ht => hd t (by simp [ht]))
    have g2 := ih2 (fun t ht => hd t (by simp [ht]))
    refine ⟨fun hok b a hc hi ha => ?_, trivial⟩
    refine (K.tok rfl (K.app (g1.1 (by decide) _ _ (Ctx.ofFine (E := false) (FineB.tok (e := false) (t := .tfun) (by decide) (by decide) (by intro _ h; cases h) (by decide)) d1 (by decide)) (fun h => absurd h (by decide)) (fun h => absurd h (by decide))) (K.tok rfl (g2.1 (by decide) _ _ (Ctx.ofFine (E := false) (FineB.tok (e := false) (t := .doubleArrow) (by decide) (by decide) (by intro _ h; cases h) (by decide)) d2 (by decide)) (fun h => absurd h (by decide)) (fun _ => (ha rfl)))))).to ?_
    first | rfl | unparse_simp
  | exprTApp h d1 d2 ih1 ih2 =>
    subst h
    intro hd
    have g1 := ih1 (fun t ht => hd t (by simp [ht]))
    have g2 := ih2 (fun t ht => hd t (by simp [ht]))
    refine ⟨fun hok b a hc hi ha => ?_, trivial⟩
    refine (K.tok rfl (K.app (g1.1 (by decide) _ _ (Ctx.ofFine (E := false) (FineB.tok (e := false) (t := .at_) (by decide) (by decide) (by intro _ h; cases h) (by decide)) d1 (by decide)) (fun h => absurd h (by decide)) (fun h => absurd h (by decide))) (g2.1 (by decide) _ _ (Ctx.ofFine (E := (endsBrace .varId)) (d1.fine _ (d1.ne_nil rfl) (FineB.nb (FineB.tok (e := false) (t := .at_) (by decide) (by decide) (by intro _ h; cases h) (by decide)))) d2 (by decide)) (fun h => absurd h (by decide)) (fun h => absurd h (by decide))))).to ?_
    first | rfl | unparse_simp
  | pmExprClause h d1 d2 ih1 ih2 =>
    subst h
    intro hd
    have g1 := ih1 (fun t ht => hd t (by simp [ht]))
    have g2 := ih2 (fun t ht => hd t (by simp [ht]))
    refine ⟨fun hok b a hc hi ha => ?_, trivial⟩
    refine (K.tok rfl (K.app (g1.1 (by decide) _ _ (Ctx.ofFine (E := false) (FineB.tok (e := false) (t := .pipe) (by decide) (by decide) (by intro _ h; cases h) (by decide)) d1 (by decide)) (fun h => absurd h (by decide)) (fun h => absurd h (by decide))) (K.tok rfl (g2.1 (by decide) _ _ (Ctx.ofFine (E := false) (FineB.tok (e := false) (t := .doubleArrow) (by decide) (by decide) (by intro _ h; cases h) (by decide)) d2 (by decide)) (fun h => absurd h (by decide)) (fun _ => (ha rfl)))))).to ?_
    first | rfl | unparse_simp
  | patWildcard h =>
    subst h
    intro hd
    refine ⟨fun hok b a hc hi ha => ?_, trivial⟩
    refine (K.tok rfl K.nil).to ?_
    first | rfl | unparse_simp
  | patBinder d1 ih1 =>
    intro hd
    have g1 := ih1 (fun t ht => hd t (by simp [ht]))
    refine ⟨fun hok b a hc hi ha => ?_, trivial⟩
    refine (g1.1 (by decide) _ _ hc (fun h => absurd h (by decide)) (fun h => absurd h (by decide))).to ?_
    first | rfl | unparse_simp
  | patConstr h d1 d2 ih1 ih2 =>
    subst h
    intro hd
    have g1 := ih1 (fun t ht => hd t (by simp [ht]))
    have g2 := ih2 (fun t ht => hd t (by simp [ht]))
    refine ⟨fun hok b a hc hi ha => ?_, trivial⟩
    refine (K.app (g1.1 (by decide) _ _ hc.left (fun h => absurd h (by decide)) (fun h => absurd h (by decide))) (g2.1 (by decide) _ _ (Ctx.ofFine (E := (endsBrace .metaId)) (d1.fine _ (d1.ne_nil rfl) hc.2.1) d2 (by decide)) (fun h => absurd h (by decide)) (fun h => absurd h (by decide)))).to ?_
    first | rfl | unparse_simp
  | apWildcard h =>
    subst h
    intro hd
    refine ⟨fun hok b a hc hi ha => ?_, trivial⟩
    refine (K.tok rfl K.nil).to ?_
    first | rfl | unparse_simp
  | apBinder d1 ih1 =>
    intro hd
    have g1 := ih1 (fun t ht => hd t (by simp [ht]))
    refine ⟨fun hok b a hc hi ha => ?_, trivial⟩
    refine (g1.1 (by decide) _ _ hc (fun h => absurd h (by decide)) (fun h => absurd h (by decide))).to ?_
    first | rfl | unparse_simp
  | apConstr d1 ih1 =>
    intro hd
    have g1 := ih1 (fun t ht => hd t (by simp [ht]))
    refine ⟨fun hok b a hc hi ha => ?_, trivial⟩
    refine (g1.1 (by decide) _ _ hc (fun h => absurd h (by decide)) (fun h => absurd h (by decide))).to ?_
    first | rfl | unparse_simp
  | apParen h d1 ih1 =>
    subst h
    intro hd
    have g1 := ih1 (fun t ht => hd t (by simp [ht]))
    refine ⟨fun hok b a hc hi ha => ?_, trivial⟩
    refine (K.tok hc.noOpen (K.app (g1.1 (by decide) _ _ (Ctx.ofParen d1 (by decide)) (fun h => absurd h (by decide)) (fun h => absurd h (by decide))) (K.tok (FineB.noClose (d1.fine _ (d1.ne_nil rfl) (show NB (Token.openParen :: _) from by simp [NB]))) K.nil))).to ?_
    first | rfl | unparse_simp
  | nextMessage h d1 ih1 =>
    subst h
    intro hd
    have g1 := ih1 (fun t ht => hd t (by simp [ht]))
    refine ⟨fun hok b a hc hi ha => ?_, trivial⟩
    refine (K.tok rfl (g1.1 (by decide) _ _ (Ctx.ofFine (E := false) (FineB.tok (e := false) (t := .semicolon) (by decide) (by decide) (by intro _ h; cases h) (by decide)) d1 (by decide)) (fun h => absurd h (by decide)) (fun h => absurd h (by decide)))).to ?_
    first | rfl | unparse_simp
  | msgLiteral h d1 d2 ih1 ih2 =>
    subst h
    intro hd
    have g1 := ih1 (fun t ht => hd t (by simp [ht]))
    have g2 := ih2 (fun t ht => hd t (by simp [ht]))
    refine ⟨fun hok b a hc hi ha => ?_, trivial⟩
    refine (K.app (g1.1 (by decide) _ _ hc.left (fun h => absurd h (by decide)) (fun h => absurd h (by decide))) (K.tok rfl (g2.1 (by decide) _ _ (Ctx.ofFine (E := false) (FineB.tok (e := false) (t := .colon) (by decide) (by decide) (by intro _ h; cases h) (by decide)) d2 (by decide)) (fun h => absurd h (by decide)) (fun h => absurd h (by decide))))).to ?_
    first | rfl | unparse_simp
  | msgVariable h d1 d2 ih1 ih2 =>
    subst h
    intro hd
    have g1 := ih1 (fun t ht => hd t (by simp [ht]))
    have g2 := ih2 (fun t ht => hd t (by simp [ht]))
    refine ⟨fun hok b a hc hi ha => ?_, trivial⟩
    refine (K.app (g1.1 (by decide) _ _ hc.left (fun h => absurd h (by decide)) (fun h => absurd h (by decide))) (K.tok rfl (g2.1 (by decide) _ _ (Ctx.ofFine (E := false) (FineB.tok (e := false) (t := .colon) (by decide) (by decide) (by intro _ h; cases h) (by decide)) d2 (by decide)) (fun h => absurd h (by decide)) (fun h => absurd h (by decide))))).to ?_
    first | rfl | unparse_simp
  | atomicVar d1 ih1 =>
    intro hd
    have g1 := ih1 (fun t ht => hd t (by simp [ht]))
    refine ⟨fun hok b a hc hi ha => ?_, trivial⟩
    refine (g1.1 (by decide) _ _ hc (fun h => absurd h (by decide)) (fun h => absurd h (by decide))).to ?_
    first | rfl | unparse_simp
  | atomicLit d1 ih1 =>
    intro hd
    have g1 := ih1 (fun t ht => hd t (by simp [ht]))
    refine ⟨fun hok b a hc hi ha => ?_, trivial⟩
    refine (g1.1 (by decide) _ _ hc (fun h => absurd h (by decide)) (fun h => absurd h (by decide))).to ?_
    first | rfl | unparse_simp
  | litInt h d1 d2 ih1 ih2 =>
    subst h
    intro hd
    have g1 := ih1 (fun t ht => hd t (by simp [ht]))
    have g2 := ih2 (fun t ht => hd t (by simp [ht]))
    refine ⟨fun hok b a hc hi ha => ?_, trivial⟩
    refine (K.app (g1.1 (by decide) _ _ hc.left (fun h => absurd h (by decide)) (fun h => absurd h (by decide))) (g2.1 (by decide) _ _ (Ctx.ofFine (E := (endsBrace .typeName)) (d1.fine _ (d1.ne_nil rfl) hc.2.1) d2 (by decide)) (fun h => absurd h (by decide)) (fun h => absurd h (by decide)))).to ?_
    first | rfl | unparse_simp
  | litHex d1 ih1 =>
    intro hd
    have g1 := ih1 (fun t ht => hd t (by simp [ht]))
    refine ⟨fun hok b a hc hi ha => ?_, trivial⟩
    refine (g1.1 (by decide) _ _ hc (fun h => absurd h (by decide)) (fun h => absurd h (by decide))).to ?_
    first | rfl | unparse_simp
  | litString d1 ih1 =>
    intro hd
    have g1 := ih1 (fun t ht => hd t (by simp [ht]))
    refine ⟨fun hok b a hc hi ha => ?_, trivial⟩
    refine (g1.1 (by decide) _ _ hc (fun h => absurd h (by decide)) (fun h => absurd h (by decide))).to ?_
    first | rfl | unparse_simp
  | litEmp h d1 d2 ih1 ih2 =>
    subst h
    intro hd
    have g1 := ih1 (fun t ht => hd t (by simp [ht]))
    have g2 := ih2 (fun t ht => hd t (by simp [ht]))
    refine ⟨fun hok b a hc hi ha => ?_, trivial⟩
    refine (K.tok rfl (K.app (g1.1 (by decide) _ _ (Ctx.ofFine (E := false) (FineB.tok (e := false) (t := .emp) (by decide) (by decide) (by intro _ h; cases h) (by decide)) d1 (by decide)) (fun h => absurd h (by decide)) (fun h => absurd h (by decide))) (g2.1 (by decide) _ _ (Ctx.ofFine (E := (endsBrace .mapKey)) (d1.fine _ (d1.ne_nil rfl) (FineB.nb (FineB.tok (e := false) (t := .emp) (by decide) (by decide) (by intro _ h; cases h) (by decide)))) d2 (by decide)) (fun h => absurd h (by decide)) (fun h => absurd h (by decide))))).to ?_
    first | rfl | unparse_simp
  | stLoad h d1 d2 ih1 ih2 =>
    subst h
    intro hd
    have g1 := ih1 (fun t ht => hd t (by simp [ht]))
    have g2 := ih2 (fun t ht => hd t (by simp [ht]))
    refine ⟨fun hok b a hc hi ha => ?_, trivial⟩
    refine (K.app (g1.1 (by decide) _ _ hc.left (fun h => absurd h (by decide)) (fun h => absurd h (by decide))) (K.tok rfl (g2.1 (by decide) _ _ (Ctx.ofFine (E := false) (FineB.tok (e := false) (t := .leftArrow) (by decide) (by decide) (by intro _ h; cases h) (by decide)) d2 (by decide)) (fun h => absurd h (by decide)) (fun h => absurd h (by decide))))).to ?_
    first | rfl | unparse_simp
  | stRemote d1 ih1 =>
    intro hd
    have g1 := ih1 (fun t ht => hd t (by simp [ht]))
    refine ⟨fun hok b a hc hi ha => ?_, trivial⟩
    refine (g1.1 (by decide) _ _ hc (fun h => absurd h (by decide)) (fun h => absurd h (by decide))).to ?_
    first | rfl | unparse_simp
  | stStore h d1 d2 ih1 ih2 =>
    subst h
    intro hd
    have g1 := ih1 (fun t ht => hd t (by simp [ht]))
    have g2 := ih2 (fun t ht => hd t (by simp [ht]))
    refine ⟨fun hok b a hc hi ha => ?_, trivial⟩
    refine (K.app (g1.1 (by decide) _ _ hc.left (fun h => absurd h (by decide)) (fun h => absurd h (by decide))) (K.tok rfl (g2.1 (by decide) _ _ (Ctx.ofFine (E := false) (FineB.tok (e := false) (t := .colonEquals) (by decide) (by decide) (by intro _ h; cases h) (by decide)) d2 (by decide)) (fun h => absurd h (by decide)) (fun h => absurd h (by decide))))).to ?_
    first | rfl | unparse_simp
  | stBind h d1 d2 ih1 ih2 =>
    subst h
    intro hd
    have g1 := ih1 (fun t ht => hd t (by simp [ht]))
    have g2 := ih2 (fun t ht => hd t (by simp [ht]))
    refine ⟨fun hok b a hc hi ha => ?_, trivial⟩
    refine (K.app (g1.1 (by decide) _ _ hc.left (fun h => absurd h (by decide)) (fun h => absurd h (by decide))) (K.tok rfl (g2.1 (by decide) _ _ (Ctx.ofFine (E := false) (FineB.tok (e := false) (t := .equals) (by decide) (by decide) (by intro _ h; cases h) (by decide)) d2 (by decide)) (fun h => absurd h (by decide)) (fun _ => (ha rfl))))).to ?_
    first | rfl | unparse_simp
  | stReadBC h d1 d2 d3 ih1 ih2 ih3 =>
    subst h
    intro hd
    have g1 := ih1 (fun t ht => hd t (by simp [ht]))
    have g2 := ih2 (fun t ht => hd t (by simp [ht]))
    have g3 := ih3 (fun t ht => hd t (by simp [ht]))
    refine ⟨fun hok b a hc hi ha => ?_, trivial⟩
    refine (K.app (g1.1 (by decide) _ _ hc.left (fun h => absurd h (by decide)) (fun h => absurd h (by decide))) (K.tok rfl (K.tok rfl (K.app (g2.1 (by decide) _ _ (Ctx.ofFine (E := false) (FineB.tok (e := false) (t := .ampersand) (by decide) (by decide) (by intro _ h; cases h) (by decide)) d2 (by decide)) (fun h => absurd h (by decide)) (fun h => absurd h (by decide))) (g3.1 (by decide) _ _ (Ctx.ofFine (E := (endsBrace .typeName)) (d2.fine _ (d2.ne_nil rfl) (FineB.nb (FineB.tok (e := false) (t := .ampersand) (by decide) (by decide) (by intro _ h; cases h) (by decide)))) d3 (by decide)) (fun h => absurd h (by decide)) (fun h => absurd h (by decide))))))).to ?_
    first | rfl | unparse_simp
  | stMapGet h d1 d2 d3 ih1 ih2 ih3 =>
    subst h
    intro hd
    have g1 := ih1 (fun t ht => hd t (by simp [ht]))
    have g2 := ih2 (fun t ht => hd t (by simp [ht]))
    have g3 := ih3 (fun t ht => hd t (by simp [ht]))
    refine ⟨fun hok b a hc hi ha => ?_, trivial⟩
    refine (K.app (g1.1 (by decide) _ _ hc.left (fun h => absurd h (by decide)) (fun h => absurd h (by decide))) (K.tok rfl (K.app (g2.1 (by decide) _ _ (Ctx.ofFine (E := false) (FineB.tok (e := false) (t := .leftArrow) (by decide) (by decide) (by intro _ h; cases h) (by decide)) d2 (by decide)) (fun h => absurd h (by decide)) (fun h => absurd h (by decide))) (g3.1 (by decide) _ _ (Ctx.ofFine (E := (endsBrace .regularId)) (d2.fine _ (d2.ne_nil rfl) (FineB.nb (FineB.tok (e := false) (t := .leftArrow) (by decide) (by decide) (by intro _ h; cases h) (by decide)))) d3 (by decide)) (fun h => absurd h (by decide)) (fun h => absurd h (by decide)))))).to ?_
    first | rfl | unparse_simp
  | stMapGetExists h d1 d2 d3 ih1 ih2 ih3 =>
    subst h
    intro hd
    have g1 := ih1 (fun t ht => hd t (by simp [ht]))
    have g2 := ih2 (fun t ht => hd t (by simp [ht]))
    have g3 := ih3 (fun t ht => hd t (by simp [ht]))
    refine ⟨fun hok b a hc hi ha => ?_, trivial⟩
    refine (K.app (g1.1 (by decide) _ _ hc.left (fun h => absurd h (by decide)) (fun h => absurd h (by decide))) (K.tok rfl (K.tok rfl (K.app (g2.1 (by decide) _ _ (Ctx.ofFine (E := false) (FineB.tok (e := false) (t := .exists_) (by decide) (by decide) (by intro _ h; cases h) (by decide)) d2 (by decide)) (fun h => absurd h (by decide)) (fun h => absurd h (by decide))) (g3.1 (by decide) _ _ (Ctx.ofFine (E := (endsBrace .regularId)) (d2.fine _ (d2.ne_nil rfl) (FineB.nb (FineB.tok (e := false) (t := .exists_) (by decide) (by decide) (by intro _ h; cases h) (by decide)))) d3 (by decide)) (fun h => absurd h (by decide)) (fun h => absurd h (by decide))))))).to ?_
    first | rfl | unparse_simp
  | stMapUpdate h d1 d2 d3 ih1 ih2 ih3 =>
    subst h
    intro hd
    have g1 := ih1 (fun t ht => hd t (by simp [ht]))
    have g2 := ih2 (fun t ht => hd t (by simp [ht]))
    have g3 := ih3 (fun t ht => hd t (by simp [ht]))
    refine ⟨fun hok b a hc hi ha => ?_, trivial⟩
    refine (K.app (g1.1 (by decide) _ _ hc.left (fun h => absurd h (by decide)) (fun h => absurd h (by decide))) (K.app (g2.1 (by decide) _ _ (Ctx.ofFine (E := (endsBrace .regularId)) (d1.fine _ (d1.ne_nil rfl) hc.2.1) d2 (by decide)) (fun h => absurd h (by decide)) (fun h => absurd h (by decide))) (K.tok rfl (g3.1 (by decide) _ _ (Ctx.ofFine (E := false) (FineB.tok (e := false) (t := .colonEquals) (by decide) (by decide) (by intro _ h; cases h) (by decide)) d3 (by decide)) (fun h => absurd h (by decide)) (fun h => absurd h (by decide)))))).to ?_
    first | rfl | unparse_simp
  | stMapDelete h d1 d2 ih1 ih2 =>
    subst h
    intro hd
    have g1 := ih1 (fun t ht => hd t (by simp [ht]))
    have g2 := ih2 (fun t ht => hd t (by simp [ht]))
    refine ⟨fun hok b a hc hi ha => ?_, trivial⟩
    refine (K.tok rfl (K.app (g1.1 (by decide) _ _ (Ctx.ofFine (E := false) (FineB.tok (e := false) (t := .delete) (by decide) (by decide) (by intro _ h; cases h) (by decide)) d1 (by decide)) (fun h => absurd h (by decide)) (fun h => absurd h (by decide))) (g2.1 (by decide) _ _ (Ctx.ofFine (E := (endsBrace .regularId)) (d1.fine _ (d1.ne_nil rfl) (FineB.nb (FineB.tok (e := false) (t := .delete) (by decide) (by decide) (by intro _ h; cases h) (by decide)))) d2 (by decide)) (fun h => absurd h (by decide)) (fun h => absurd h (by decide))))).to ?_
    first | rfl | unparse_simp
  | stAccept h =>
    subst h
    intro hd
    refine ⟨fun hok b a hc hi ha => ?_, trivial⟩
    refine (K.tok rfl K.nil).to ?_
    first | rfl | unparse_simp
  | stSend h d1 ih1 =>
    subst h
    intro hd
    have g1 := ih1 (fun t ht => hd t (by simp [ht]))
    refine ⟨fun hok b a hc hi ha => ?_, trivial⟩
    refine (K.tok rfl (g1.1 (by decide) _ _ (Ctx.ofFine (E := false) (FineB.tok (e := false) (t := .send) (by decide) (by decide) (by intro _ h; cases h) (by decide)) d1 (by decide)) (fun h => absurd h (by decide)) (fun h => absurd h (by decide)))).to ?_
    first | rfl | unparse_simp
  | stEvent h d1 ih1 =>
    subst h
    intro hd
    have g1 := ih1 (fun t ht => hd t (by simp [ht]))
    refine ⟨fun hok b a hc hi ha => ?_, trivial⟩
    refine (K.tok rfl (g1.1 (by decide) _ _ (Ctx.ofFine (E := false) (FineB.tok (e := false) (t := .event) (by decide) (by decide) (by intro _ h; cases h) (by decide)) d1 (by decide)) (fun h => absurd h (by decide)) (fun h => absurd h (by decide)))).to ?_
    first | rfl | unparse_simp
  | stThrow h d1 ih1 =>
    subst h
    intro hd
    have g1 := ih1 (fun t ht => hd t (by simp [ht]))
    refine ⟨fun hok b a hc hi ha => ?_, trivial⟩
    refine (K.tok rfl (g1.1 (by decide) _ _ (Ctx.ofFine (E := false) (FineB.tok (e := false) (t := .throw) (by decide) (by decide) (by intro _ h; cases h) (by decide)) d1 (by decide)) (fun h => absurd h (by decide)) (fun h => absurd h (by decide)))).to ?_
    first | rfl | unparse_simp
  | stMatch h d1 d2 ih1 ih2 =>
    subst h
    intro hd
    have g1 := ih1 (fun t ht => hd t (by simp [ht]))
    have g2 := ih2 (fun t ht => hd t (by simp [ht]))
    refine ⟨fun hok b a hc hi ha => ?_, trivial⟩
    refine (K.tok rfl (K.app (g1.1 (by decide) _ _ (Ctx.ofFine (E := false) (FineB.tok (e := false) (t := .match_) (by decide) (by decide) (by intro _ h; cases h) (by decide)) d1 (by decide)) (fun h => absurd h (by decide)) (fun h => absurd h (by decide))) (K.tok rfl (K.app (g2.1 (by decide) _ _ (Ctx.ofFine (E := false) (FineB.tok (e := false) (t := .with_) (by decide) (by decide) (by intro _ h; cases h) (by decide)) d2 (by decide)) (fun h => absurd h (by decide)) (fun _ => (NotVar.tok rfl))) (K.tok rfl K.nil))))).to ?_
    first | rfl | unparse_simp
  | stCall h d1 d2 ih1 ih2 =>
    subst h
    intro hd
    have g1 := ih1 (fun t ht => hd t (by simp [ht]))
    have g2 := ih2 (fun t ht => hd t (by simp [ht]))
    refine ⟨fun hok b a hc hi ha => ?_, trivial⟩
    refine (K.app (g1.1 (by decide) _ _ hc.left (fun h => absurd h (by decide)) (fun h => absurd h (by decide))) (g2.1 (by decide) _ _ (Ctx.ofFine (E := (endsBrace .componentId)) (d1.fine _ (d1.ne_nil rfl) hc.2.1) d2 (by decide)) (fun h => absurd h (by decide)) (fun h => absurd h (by decide)))).to ?_
    first | rfl | unparse_simp
  | stForall h d1 d2 ih1 ih2 =>
    subst h
    intro hd
    have g1 := ih1 (fun t ht => hd t (by simp [ht]))
    have g2 := ih2 (fun t ht => hd t (by simp [ht]))
    refine ⟨fun hok b a hc hi ha => ?_, trivial⟩
    refine (K.tok rfl (K.app (g1.1 (by decide) _ _ (Ctx.ofFine (E := false) (FineB.tok (e := false) (t := .forall_) (by decide) (by decide) (by intro _ h; cases h) (by decide)) d1 (by decide)) (fun h => absurd h (by decide)) (fun h => absurd h (by decide))) (g2.1 (by decide) _ _ (Ctx.ofFine (E := (endsBrace .varId)) (d1.fine _ (d1.ne_nil rfl) (FineB.nb (FineB.tok (e := false) (t := .forall_) (by decide) (by decide) (by intro _ h; cases h) (by decide)))) d2 (by decide)) (fun h => absurd h (by decide)) (fun h => absurd h (by decide))))).to ?_
    first | rfl | unparse_simp
  | nextStatement h d1 ih1 =>
    subst h
    intro hd
    have g1 := ih1 (fun t ht => hd t (by simp [ht]))
    refine ⟨fun hok b a hc hi ha => ?_, trivial⟩
    refine (K.tok rfl (g1.1 (by decide) _ _ (Ctx.ofFine (E := false) (FineB.tok (e := false) (t := .semicolon) (by decide) (by decide) (by intro _ h; cases h) (by decide)) d1 (by decide)) (fun h => absurd h (by decide)) (fun _ => (ha rfl)))).to ?_
    first | rfl | unparse_simp
  | stmtBlock h d1 d2 ih1 ih2 =>
    subst h
    intro hd
    have g1 := ih1 (fun t ht => hd t (by simp [ht]))
    have g2 := ih2 (fun t ht => hd t (by simp [ht]))
    refine ⟨fun hok b a hc hi ha => ?_, trivial⟩
    refine (K.app (g1.1 (by decide) _ _ hc.left (fun h => absurd h (by decide)) (fun _ => (NotVar.app d2 (by decide) (ha rfl)))) (g2.1 (by decide) _ _ (Ctx.ofFine (E := (endsBrace .statement)) (d1.fine _ (d1.ne_nil rfl) hc.2.1) d2 (by decide)) (fun h => absurd h (by decide)) (fun _ => (ha rfl)))).to ?_
    first | rfl | unparse_simp
  | bcFetchArgs h d1 ih1 =>
    subst h
    intro hd
    have g1 := ih1 (fun t ht => hd t (by simp [ht]))
    refine ⟨fun hok b a hc hi ha => ?_, trivial⟩
    refine (K.tok hc.noOpen (K.app (g1.1 (by decide) _ _ (Ctx.ofParen d1 (by decide)) (fun h => absurd h (by decide)) (fun h => absurd h (by decide))) (K.tok (FineB.noClose (d1.fine _ (d1.ne_nil rfl) (show NB (Token.openParen :: _) from by simp [NB]))) K.nil))).to ?_
    first | rfl | unparse_simp
  | componentType d1 ih1 =>
    intro hd
    have g1 := ih1 (fun t ht => hd t (by simp [ht]))
    refine ⟨fun hok b a hc hi ha => ?_, trivial⟩
    refine (g1.1 (by decide) _ _ hc (fun h => absurd h (by decide)) (fun h => absurd h (by decide))).to ?_
    first | rfl | unparse_simp
  | componentRegular d1 ih1 =>
    intro hd
    have g1 := ih1 (fun t ht => hd t (by simp [ht]))
    refine ⟨fun hok b a hc hi ha => ?_, trivial⟩
    refine (g1.1 (by decide) _ _ hc (fun h => absurd h (by decide)) (fun h => absurd h (by decide))).to ?_
    first | rfl | unparse_simp
  | pmClause h d1 d2 ih1 ih2 =>
    subst h
    intro hd
    have g1 := ih1 (fun t ht => hd t (by simp [ht]))
    have g2 := ih2 (fun t ht => hd t (by simp [ht]))
    refine ⟨fun hok b a hc hi ha => ?_, trivial⟩
    refine (K.tok rfl (K.app (g1.1 (by decide) _ _ (Ctx.ofFine (E := false) (FineB.tok (e := false) (t := .pipe) (by decide) (by decide) (by intro _ h; cases h) (by decide)) d1 (by decide)) (fun h => absurd h (by decide)) (fun h => absurd h (by decide))) (K.tok rfl (g2.1 (by decide) _ _ (Ctx.ofFine (E := false) (FineB.tok (e := false) (t := .doubleArrow) (by decide) (by decide) (by intro _ h; cases h) (by decide)) d2 (by decide)) (fun h => absurd h (by decide)) (fun _ => (ha rfl)))))).to ?_
    first | rfl | unparse_simp
  | rfState h d1 d2 d3 ih1 ih2 ih3 =>
    subst h
    intro hd
    have g1 := ih1 (fun t ht => hd t (by simp [ht]))
    have g2 := ih2 (fun t ht => hd t (by simp [ht]))
    have g3 := ih3 (fun t ht => hd t (by simp [ht]))
    refine ⟨fun hok b a hc hi ha => ?_, trivial⟩
    refine (K.app (g1.1 (by decide) _ _ hc.left (fun h => absurd h (by decide)) (fun h => absurd h (by decide))) (K.tok rfl (K.tok rfl (K.app (g2.1 (by decide) _ _ (Ctx.ofFine (E := false) (FineB.tok (e := false) (t := .ampersand) (by decide) (by decide) (by intro _ h; cases h) (by decide)) d2 (by decide)) (fun h => absurd h (by decide)) (fun h => absurd h (by decide))) (K.tok rfl (g3.1 (by decide) _ _ (Ctx.ofFine (E := false) (FineB.tok (e := false) (t := .dot) (by decide) (by decide) (by intro _ h; cases h) (by decide)) d3 (by decide)) (fun h => absurd h (by decide)) (fun h => absurd h (by decide)))))))).to ?_
    first | rfl | unparse_simp
  | rfSpecial h d1 d2 d3 ih1 ih2 ih3 =>
    subst h
    intro hd
    have g1 := ih1 (fun t ht => hd t (by simp [ht]))
    have g2 := ih2 (fun t ht => hd t (by simp [ht]))
    have g3 := ih3 (fun t ht => hd t (by simp [ht]))
    refine ⟨fun hok b a hc hi ha => ?_, trivial⟩
    refine (K.app (g1.1 (by decide) _ _ hc.left (fun h => absurd h (by decide)) (fun h => absurd h (by decide))) (K.tok rfl (K.tok rfl (K.app (g2.1 (by decide) _ _ (Ctx.ofFine (E := false) (FineB.tok (e := false) (t := .ampersand) (by decide) (by decide) (by intro _ h; cases h) (by decide)) d2 (by decide)) (fun h => absurd h (by decide)) (fun h => absurd h (by decide))) (K.tok rfl (g3.1 (by decide) _ _ (Ctx.ofFine (E := false) (FineB.tok (e := false) (t := .dot) (by decide) (by decide) (by intro _ h; cases h) (by decide)) d3 (by decide)) (fun h => absurd h (by decide)) (fun h => absurd h (by decide)))))))).to ?_
    first | rfl | unparse_simp
  | rfMap h d1 d2 d3 d4 ih1 ih2 ih3 ih4 =>
    subst h
    intro hd
    have g1 := ih1 (fun t ht => hd t (by simp [ht]))
    have g2 := ih2 (fun t ht => hd t (by simp [ht]))
    have g3 := ih3 (fun t ht => hd t (by simp [ht]))
    have g4 := ih4 (fun t ht => hd t (by simp [ht]))
    refine ⟨fun hok b a hc hi ha => ?_, trivial⟩
    refine (K.app (g1.1 (by decide) _ _ hc.left (fun h => absurd h (by decide)) (fun h => absurd h (by decide))) (K.tok rfl (K.tok rfl (K.app (g2.1 (by decide) _ _ (Ctx.ofFine (E := false) (FineB.tok (e := false) (t := .ampersand) (by decide) (by decide) (by intro _ h; cases h) (by decide)) d2 (by decide)) (fun h => absurd h (by decide)) (fun h => absurd h (by decide))) (K.tok rfl (K.app (g3.1 (by decide) _ _ (Ctx.ofFine (E := false) (FineB.tok (e := false) (t := .dot) (by decide) (by decide) (by intro _ h; cases h) (by decide)) d3 (by decide)) (fun h => absurd h (by decide)) (fun h => absurd h (by decide))) (g4.1 (by decide) _ _ (Ctx.ofFine (E := (endsBrace .regularId)) (d3.fine _ (d3.ne_nil rfl) (FineB.nb (FineB.tok (e := false) (t := .dot) (by decide) (by decide) (by intro _ h; cases h) (by decide)))) d4 (by decide)) (fun h => absurd h (by decide)) (fun h => absurd h (by decide))))))))).to ?_
    first | rfl | unparse_simp
  | rfExists h d1 d2 d3 d4 ih1 ih2 ih3 ih4 =>
    subst h
    intro hd
    have g1 := ih1 (fun t ht => hd t (by simp [ht]))
    have g2 := ih2 (fun t ht => hd t (by simp [ht]))
    have g3 := ih3 (fun t ht => hd t (by simp [ht]))
    have g4 := ih4 (fun t ht => hd t (by simp [ht]))
    refine ⟨fun hok b a hc hi ha => ?_, trivial⟩
    refine (K.app (g1.1 (by decide) _ _ hc.left (fun h => absurd h (by decide)) (fun h => absurd h (by decide))) (K.tok rfl (K.tok rfl (K.tok rfl (K.app (g2.1 (by decide) _ _ (Ctx.ofFine (E := false) (FineB.tok (e := false) (t := .exists_) (by decide) (by decide) (by intro _ h; cases h) (by decide)) d2 (by decide)) (fun h => absurd h (by decide)) (fun h => absurd h (by decide))) (K.tok rfl (K.app (g3.1 (by decide) _ _ (Ctx.ofFine (E := false) (FineB.tok (e := false) (t := .dot) (by decide) (by decide) (by intro _ h; cases h) (by decide)) d3 (by decide)) (fun h => absurd h (by decide)) (fun h => absurd h (by decide))) (g4.1 (by decide) _ _ (Ctx.ofFine (E := (endsBrace .regularId)) (d3.fine _ (d3.ne_nil rfl) (FineB.nb (FineB.tok (e := false) (t := .dot) (by decide) (by decide) (by intro _ h; cases h) (by decide)))) d4 (by decide)) (fun h => absurd h (by decide)) (fun h => absurd h (by decide)))))))))).to ?_
    first | rfl | unparse_simp
  | rfCast h d1 d2 d3 ih1 ih2 ih3 =>
    subst h
    intro hd
    have g1 := ih1 (fun t ht => hd t (by simp [ht]))
    have g2 := ih2 (fun t ht => hd t (by simp [ht]))
    have g3 := ih3 (fun t ht => hd t (by simp [ht]))
    refine ⟨fun hok b a hc hi ha => ?_, trivial⟩
    refine (K.app (g1.1 (by decide) _ _ hc.left (fun h => absurd h (by decide)) (fun h => absurd h (by decide))) (K.tok rfl (K.tok rfl (K.app (g2.1 (by decide) _ _ (Ctx.ofFine (E := false) (FineB.tok (e := false) (t := .ampersand) (by decide) (by decide) (by intro _ h; cases h) (by decide)) d2 (by decide)) (fun h => absurd h (by decide)) (fun h => absurd h (by decide))) (K.tok rfl (g3.1 (by decide) _ _ (Ctx.ofFine (E := false) (FineB.tok (e := false) (t := .as_) (by decide) (by decide) (by intro _ h; cases h) (by decide)) d3 (by decide)) (fun h => absurd h (by decide)) (fun h => absurd h (by decide)))))))).to ?_
    first | rfl | unparse_simp
  | mapAccess h d1 ih1 =>
    subst h
    intro hd
    have g1 := ih1 (fun t ht => hd t (by simp [ht]))
    refine ⟨fun hok b a hc hi ha => ?_, trivial⟩
    refine (K.tok rfl (K.app (g1.1 (by decide) _ _ (Ctx.ofFine (E := false) (FineB.tok (e := false) (t := .openBracket) (by decide) (by decide) (by intro _ h; cases h) (by decide)) d1 (by decide)) (fun h => absurd h (by decide)) (fun h => absurd h (by decide))) (K.tok rfl K.nil))).to ?_
    first | rfl | unparse_simp
  | paramPair d1 ih1 =>
    intro hd
    have g1 := ih1 (fun t ht => hd t (by simp [ht]))
    refine ⟨fun hok b a hc hi ha => ?_, trivial⟩
    refine (g1.1 (by decide) _ _ hc (fun h => absurd h (by decide)) (fun h => absurd h (by decide))).to ?_
    first | rfl | unparse_simp
  | nextParamPair h d1 ih1 =>
    subst h
    intro hd
    have g1 := ih1 hd.tail
    have k := fun b a => g1.1 rfl (.comma :: b) a (Ctx.ofFine (E := false) (FineB.tok (by decide) (by decide) (by intro _ h; cases h) (by decide))
        d1 (.inl rfl)) (fun h => absurd h (by decide)) (fun h => absurd h (by decide))
    exact ⟨fun _ b a hc _ _ => K.tok hc.noComma (k b a), fun b a => K.drop rfl (k _ a)⟩
  | compParams h d1 d2 ih1 ih2 =>
    subst h
    intro hd
    have g1 := ih1 hd.tail.left
    have g2 := ih2 hd.tail.right.left
    refine ⟨fun hok b a hc hi ha => ?_, trivial⟩
    cases d1 with
    | optNone =>
      cases d2 with
      | starNil => exact K.tok hc.noOpen (K.tok hc.noUnit K.nil)
      | starCons d3 d4 =>
        have f := (Derives.starCons d3 d4).fine (.openParen :: b)
          (by intro h; exact d3.ne_nil rfl (List.append_eq_nil_iff.mp h).1) (by simp [NB])
        exact (K.tok hc.noOpen (K.app (g2.2 b _) (K.tok f.noClose K.nil))).to
          (by unparse_simp)
    | optSome d1 =>
      have f := d1.fine (.openParen :: b) (d1.ne_nil rfl) (by simp [NB])
      have f2 := FineB.step (e := false) f (d2.fine _) (by decide)
      exact (K.tok hc.noOpen (K.app (g1.1 rfl _ _ (Ctx.ofParen d1 (by decide))
        (fun h => absurd h (by decide)) (fun h => absurd h (by decide)))
        (K.app (g2.1 rfl _ _ (Ctx.ofFine f d2 (.inl rfl)) (fun h => absurd h (by decide))
          (fun h => absurd h (by decide))) (K.tok f2.noClose K.nil)))).to (by unparse_simp)
  | compTransition d1 ih1 =>
    intro hd
    have g1 := ih1 (fun t ht => hd t (by simp [ht]))
    refine ⟨fun hok b a hc hi ha => ?_, trivial⟩
    refine (g1.1 (by decide) _ _ hc (fun h => absurd h (by decide)) (fun h => absurd h (by decide))).to ?_
    first | rfl | unparse_simp
  | compProcedure d1 ih1 =>
    intro hd
    have g1 := ih1 (fun t ht => hd t (by simp [ht]))
    refine ⟨fun hok b a hc hi ha => ?_, trivial⟩
    refine (g1.1 (by decide) _ _ hc (fun h => absurd h (by decide)) (fun h => absurd h (by decide))).to ?_
    first | rfl | unparse_simp
  | transDef h d1 d2 d3 ih1 ih2 ih3 =>
    subst h
    intro hd
    have g1 := ih1 (fun t ht => hd t (by simp [ht]))
    have g2 := ih2 (fun t ht => hd t (by simp [ht]))
    have g3 := ih3 (fun t ht => hd t (by simp [ht]))
    refine ⟨fun hok b a hc hi ha => ?_, trivial⟩
    refine (K.tok rfl (K.app (g1.1 (by decide) _ _ (Ctx.ofFine (E := false) (FineB.tok (e := false) (t := .transition) (by decide) (by decide) (by intro _ h; cases h) (by decide)) d1 (by decide)) (fun h => absurd h (by decide)) (fun h => absurd h (by decide))) (K.app (g2.1 (by decide) _ _ (Ctx.ofFine (E := (endsBrace .componentId)) (d1.fine _ (d1.ne_nil rfl) (FineB.nb (FineB.tok (e := false) (t := .transition) (by decide) (by decide) (by intro _ h; cases h) (by decide)))) d2 (by decide)) (fun h => absurd h (by decide)) (fun h => absurd h (by decide))) (g3.1 (by decide) _ _ (Ctx.ofFine (E := (endsBrace .compParams)) (d2.fine _ (d2.ne_nil rfl) (FineB.nb (d1.fine _ (d1.ne_nil rfl) (FineB.nb (FineB.tok (e := false) (t := .transition) (by decide) (by decide) (by intro _ h; cases h) (by decide)))))) d3 (by decide)) (fun h => absurd h (by decide)) (fun h => absurd h (by decide)))))).to ?_
    first | rfl | unparse_simp
  | procDef h d1 d2 d3 ih1 ih2 ih3 =>
    subst h
    intro hd
    have g1 := ih1 (fun t ht => hd t (by simp [ht]))
    have g2 := ih2 (fun t ht => hd t (by simp [ht]))
    have g3 := ih3 (fun t ht => hd t (by simp [ht]))
    refine ⟨fun hok b a hc hi ha => ?_, trivial⟩
    refine (K.tok rfl (K.app (g1.1 (by decide) _ _ (Ctx.ofFine (E := false) (FineB.tok (e := false) (t := .procedure) (by decide) (by decide) (by intro _ h; cases h) (by decide)) d1 (by decide)) (fun h => absurd h (by decide)) (fun h => absurd h (by decide))) (K.app (g2.1 (by decide) _ _ (Ctx.ofFine (E := (endsBrace .componentId)) (d1.fine _ (d1.ne_nil rfl) (FineB.nb (FineB.tok (e := false) (t := .procedure) (by decide) (by decide) (by intro _ h; cases h) (by decide)))) d2 (by decide)) (fun h => absurd h (by decide)) (fun h => absurd h (by decide))) (g3.1 (by decide) _ _ (Ctx.ofFine (E := (endsBrace .compParams)) (d2.fine _ (d2.ne_nil rfl) (FineB.nb (d1.fine _ (d1.ne_nil rfl) (FineB.nb (FineB.tok (e := false) (t := .procedure) (by decide) (by decide) (by intro _ h; cases h) (by decide)))))) d3 (by decide)) (fun h => absurd h (by decide)) (fun h => absurd h (by decide)))))).to ?_
    first | rfl | unparse_simp
  | compBody h d1 ih1 =>
    subst h
    intro hd
    have g1 := ih1 (fun t ht => hd t (by simp [ht]))
    refine ⟨fun hok b a hc hi ha => ?_, trivial⟩
    refine (K.app (g1.1 (by decide) _ _ hc.left (fun h => absurd h (by decide)) (fun _ => NotVar.tok rfl)) (K.tok rfl K.nil)).to ?_
    unparse_simp
  | contractDef h d1 d2 d3 d4 d5 ih1 ih2 ih3 ih4 ih5 =>
    subst h
    intro hd
    have g1 := ih1 (fun t ht => hd t (by simp [ht]))
    have g2 := ih2 (fun t ht => hd t (by simp [ht]))
    have g3 := ih3 (fun t ht => hd t (by simp [ht]))
    have g4 := ih4 (fun t ht => hd t (by simp [ht]))
    have g5 := ih5 (fun t ht => hd t (by simp [ht]))
    refine ⟨fun hok b a hc hi ha => ?_, trivial⟩
    refine (K.tok rfl (K.app (g1.1 (by decide) _ _ (Ctx.ofFine (E := false) (FineB.tok (e := false) (t := .contract) (by decide) (by decide) (by intro _ h; cases h) (by decide)) d1 (by decide)) (fun h => absurd h (by decide)) (fun h => absurd h (by decide))) (K.app (g2.1 (by decide) _ _ (Ctx.ofFine (E := (endsBrace .typeName)) (d1.fine _ (d1.ne_nil rfl) (FineB.nb (FineB.tok (e := false) (t := .contract) (by decide) (by decide) (by intro _ h; cases h) (by decide)))) d2 (by decide)) (fun h => absurd h (by decide)) (fun h => absurd h (by decide))) (K.app (g3.1 (by decide) _ _ (Ctx.ofFine (E := (endsBrace .compParams)) (d2.fine _ (d2.ne_nil rfl) (FineB.nb (d1.fine _ (d1.ne_nil rfl) (FineB.nb (FineB.tok (e := false) (t := .contract) (by decide) (by decide) (by intro _ h; cases h) (by decide)))))) d3 (by decide)) (fun h => absurd h (by decide)) (fun h => absurd h (by decide))) (K.app (g4.1 (by decide) _ _ (Ctx.ofFine (E := ((endsBrace .compParams) || endsBrace (.opt .withConstraint))) (FineB.step (e := ((endsBrace .compParams) || endsBrace (.opt .withConstraint))) (d2.fine _ (d2.ne_nil rfl) (FineB.nb (d1.fine _ (d1.ne_nil rfl) (FineB.nb (FineB.tok (e := false) (t := .contract) (by decide) (by decide) (by intro _ h; cases h) (by decide)))))) (d3.fine _) (by decide)) d4 (by decide)) (fun h => absurd h (by decide)) (fun _ => (NotVar.app d5 (by decide) (ha rfl)))) (g5.1 (by decide) _ _ (Ctx.ofFine (E := (((endsBrace .compParams) || endsBrace (.opt .withConstraint)) || endsBrace (.star .contractField))) (FineB.step (e := (((endsBrace .compParams) || endsBrace (.opt .withConstraint)) || endsBrace (.star .contractField))) (FineB.step (e := ((endsBrace .compParams) || endsBrace (.opt .withConstraint))) (d2.fine _ (d2.ne_nil rfl) (FineB.nb (d1.fine _ (d1.ne_nil rfl) (FineB.nb (FineB.tok (e := false) (t := .contract) (by decide) (by decide) (by intro _ h; cases h) (by decide)))))) (d3.fine _) (by decide)) (d4.fine _) (by decide)) d5 (by decide)) (fun h => absurd h (by decide)) (fun h => absurd h (by decide)))))))).to ?_
    first | rfl | unparse_simp
  | contractField h d1 d2 ih1 ih2 =>
    subst h
    intro hd
    have g1 := ih1 (fun t ht => hd t (by simp [ht]))
    have g2 := ih2 (fun t ht => hd t (by simp [ht]))
    refine ⟨fun hok b a hc hi ha => ?_, trivial⟩
    refine (K.tok rfl (K.app (g1.1 (by decide) _ _ (Ctx.ofFine (E := false) (FineB.tok (e := false) (t := .field) (by decide) (by decide) (by intro _ h; cases h) (by decide)) d1 (by decide)) (fun h => absurd h (by decide)) (fun h => absurd h (by decide))) (K.tok rfl (g2.1 (by decide) _ _ (Ctx.ofFine (E := false) (FineB.tok (e := false) (t := .equals) (by decide) (by decide) (by intro _ h; cases h) (by decide)) d2 (by decide)) (fun h => absurd h (by decide)) (fun _ => (ha rfl)))))).to ?_
    first | rfl | unparse_simp
  | withConstraint h d1 ih1 =>
    subst h
    intro hd
    have g1 := ih1 (fun t ht => hd t (by simp [ht]))
    refine ⟨fun hok b a hc hi ha => ?_, trivial⟩
    refine (K.tok rfl (K.app (g1.1 (by decide) _ _ (Ctx.ofFine (E := false) (FineB.tok (e := false) (t := .with_) (by decide) (by decide) (by intro _ h; cases h) (by decide)) d1 (by decide)) (fun h => absurd h (by decide)) (fun _ => (NotVar.tok rfl))) (K.tok rfl K.nil))).to ?_
    first | rfl | unparse_simp

end Verif
