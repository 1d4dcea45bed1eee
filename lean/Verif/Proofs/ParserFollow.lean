import Verif.Proofs.ParserHead
/-
Follow conditions, lookahead facts and the measure used by the completeness proof.
-/
namespace Verif

@[simp] theorem kindOf_plus : Token.plus.kind = .plus := rfl
@[simp] theorem kindOf_asterisk : Token.asterisk.kind = .asterisk := rfl
@[simp] theorem kindOf_semicolon : Token.semicolon.kind = .semicolon := rfl
@[simp] theorem kindOf_colon : Token.colon.kind = .colon := rfl
@[simp] theorem kindOf_dot : Token.dot.kind = .dot := rfl
@[simp] theorem kindOf_pipe : Token.pipe.kind = .pipe := rfl
@[simp] theorem kindOf_openBracket : Token.openBracket.kind = .openBracket := rfl
@[simp] theorem kindOf_closeBracket : Token.closeBracket.kind = .closeBracket := rfl
@[simp] theorem kindOf_openParen : Token.openParen.kind = .openParen := rfl
@[simp] theorem kindOf_closeParen : Token.closeParen.kind = .closeParen := rfl
@[simp] theorem kindOf_openBrace : Token.openBrace.kind = .openBrace := rfl
@[simp] theorem kindOf_closeBrace : Token.closeBrace.kind = .closeBrace := rfl
@[simp] theorem kindOf_comma : Token.comma.kind = .comma := rfl
@[simp] theorem kindOf_doubleArrow : Token.doubleArrow.kind = .doubleArrow := rfl
@[simp] theorem kindOf_arrow : Token.arrow.kind = .arrow := rfl
@[simp] theorem kindOf_equals : Token.equals.kind = .equals := rfl
@[simp] theorem kindOf_ampersand : Token.ampersand.kind = .ampersand := rfl
@[simp] theorem kindOf_leftArrow : Token.leftArrow.kind = .leftArrow := rfl
@[simp] theorem kindOf_colonEquals : Token.colonEquals.kind = .colonEquals := rfl
@[simp] theorem kindOf_at_ : Token.at_.kind = .at_ := rfl
@[simp] theorem kindOf_minus : Token.minus.kind = .minus := rfl
@[simp] theorem kindOf_underscore : Token.underscore.kind = .underscore := rfl
@[simp] theorem kindOf_forall_ : Token.forall_.kind = .forall_ := rfl
@[simp] theorem kindOf_builtin : Token.builtin.kind = .builtin := rfl
@[simp] theorem kindOf_library : Token.library.kind = .library := rfl
@[simp] theorem kindOf_import_ : Token.import_.kind = .import_ := rfl
@[simp] theorem kindOf_let_ : Token.let_.kind = .let_ := rfl
@[simp] theorem kindOf_in_ : Token.in_.kind = .in_ := rfl
@[simp] theorem kindOf_match_ : Token.match_.kind = .match_ := rfl
@[simp] theorem kindOf_with_ : Token.with_.kind = .with_ := rfl
@[simp] theorem kindOf_end_ : Token.end_.kind = .end_ := rfl
@[simp] theorem kindOf_fun_ : Token.fun_.kind = .fun_ := rfl
@[simp] theorem kindOf_tfun : Token.tfun.kind = .tfun := rfl
@[simp] theorem kindOf_contract : Token.contract.kind = .contract := rfl
@[simp] theorem kindOf_transition : Token.transition.kind = .transition := rfl
@[simp] theorem kindOf_send : Token.send.kind = .send := rfl
@[simp] theorem kindOf_field : Token.field.kind = .field := rfl
@[simp] theorem kindOf_accept : Token.accept.kind = .accept := rfl
@[simp] theorem kindOf_exists_ : Token.exists_.kind = .exists_ := rfl
@[simp] theorem kindOf_delete : Token.delete.kind = .delete := rfl
@[simp] theorem kindOf_throw : Token.throw.kind = .throw := rfl
@[simp] theorem kindOf_map : Token.map.kind = .map := rfl
@[simp] theorem kindOf_scillaVersion : Token.scillaVersion.kind = .scillaVersion := rfl
@[simp] theorem kindOf_type : Token.type.kind = .type := rfl
@[simp] theorem kindOf_of_ : Token.of_.kind = .of_ := rfl
@[simp] theorem kindOf_as_ : Token.as_.kind = .as_ := rfl
@[simp] theorem kindOf_procedure : Token.procedure.kind = .procedure := rfl
@[simp] theorem kindOf_emp : Token.emp.kind = .emp := rfl
@[simp] theorem kindOf_event : Token.event.kind = .event := rfl
@[simp] theorem kindOf_eventType : Token.eventType.kind = .eventType := rfl
@[simp] theorem kindOf_byStr : Token.byStr.kind = .byStr := rfl
@[simp] theorem kindOf_byStrWithSize (s : Str) : (Token.byStrWithSize s).kind = .byStrWithSize [] := rfl
@[simp] theorem kindOf_comment (s : Str) : (Token.comment s).kind = .comment [] := rfl
@[simp] theorem kindOf_number (s : Str) : (Token.number s).kind = .number [] := rfl
@[simp] theorem kindOf_hexNumber (s : Str) : (Token.hexNumber s).kind = .hexNumber [] := rfl
@[simp] theorem kindOf_identifier (s : Str) : (Token.identifier s).kind = .identifier [] := rfl
@[simp] theorem kindOf_templateIdentifier (s : Str) : (Token.templateIdentifier s).kind = .templateIdentifier [] := rfl
@[simp] theorem kindOf_customIdentifier (s : Str) : (Token.customIdentifier s).kind = .customIdentifier [] := rfl
@[simp] theorem kindOf_specialIdentifier (s : Str) : (Token.specialIdentifier s).kind = .specialIdentifier [] := rfl
@[simp] theorem kindOf_typeName (s : Str) : (Token.typeName s).kind = .typeName [] := rfl
@[simp] theorem kindOf_stringLiteral (s : Str) : (Token.stringLiteral s).kind = .stringLiteral [] := rfl
@[simp] theorem kindOf_whitespace : Token.whitespace.kind = .whitespace := rfl
@[simp] theorem kindOf_unknown : Token.unknown.kind = .unknown := rfl

/-- the word does not start with a terminal of `L` -/
def Follow (L : List Token) (ts : List STok) : Prop :=
  ∀ t us, ts = t :: us → t.tok.kind ∉ L

theorem Follow.nil {L : List Token} : Follow L [] := by intro t us e; cases e

theorem Follow.cons {L : List Token} {t : STok} {ts : List STok} (h : t.tok.kind ∉ L) :
    Follow L (t :: ts) := by
  intro a us e; injection e with e1 e2; subst e1; exact h

theorem Follow.mono {L M : List Token} {ts : List STok} (h : Follow M ts) (hs : ∀ k ∈ L, k ∈ M) :
    Follow L ts := fun t us e hk => h t us e (hs _ hk)

theorem Follow.app {L : List Token} {n : NT} {w K : List STok} {v : Val n} (d : Derives n w v)
    (hd : ∀ k ∈ heads n, k ∉ L) (hn : nullable n = false) : Follow L (w ++ K) := by
  intro t us e
  cases w with
  | nil => exact absurd rfl (d.ne_nil hn)
  | cons a w =>
    injection e with e1 e2; subst e1
    exact hd _ (d.headed _ _ rfl)

theorem Follow.app' {L : List Token} {n : NT} {w K : List STok} {v : Val n} (d : Derives n w v)
    (hd : ∀ k ∈ heads n, k ∉ L) (hK : Follow L K) : Follow L (w ++ K) := by
  intro t us e
  cases w with
  | nil => exact hK t us e
  | cons a w =>
    injection e with e1 e2; subst e1
    exact hd _ (d.headed _ _ rfl)

/-! ### lookahead -/

section look
variable {p : Pos} {t : STok} {ts : List STok} {i : Nat} {k : Token} {ks : List Token}

@[simp] theorem at_nil : (PS.mk p []).at? i k = false := by simp [PS.at?, PS.look]
@[simp] theorem at_zero : (PS.mk p (t :: ts)).at? 0 k = (t.tok.kind == k) := by
  simp [PS.at?, PS.look]
@[simp] theorem at_one : (PS.mk p (t :: ts)).at? 1 k = (PS.mk p ts).at? 0 k := by
  simp [PS.at?, PS.look]
@[simp] theorem at_two : (PS.mk p (t :: ts)).at? 2 k = (PS.mk p ts).at? 1 k := by
  simp [PS.at?, PS.look]
@[simp] theorem at_three : (PS.mk p (t :: ts)).at? 3 k = (PS.mk p ts).at? 2 k := by
  simp [PS.at?, PS.look]
@[simp] theorem at_four : (PS.mk p (t :: ts)).at? 4 k = (PS.mk p ts).at? 3 k := by
  simp [PS.at?, PS.look]
@[simp] theorem among_nil : (PS.mk p []).among i ks = false := by simp [PS.among, PS.look]
@[simp] theorem among_zero : (PS.mk p (t :: ts)).among 0 ks = ks.contains t.tok.kind := by
  simp [PS.among, PS.look]
@[simp] theorem among_three : (PS.mk p (t :: ts)).among 3 ks = (PS.mk p ts).among 2 ks := by
  simp [PS.among, PS.look]
@[simp] theorem among_two : (PS.mk p (t :: ts)).among 2 ks = (PS.mk p ts).among 1 ks := by
  simp [PS.among, PS.look]
@[simp] theorem among_one : (PS.mk p (t :: ts)).among 1 ks = (PS.mk p ts).among 0 ks := by
  simp [PS.among, PS.look]
end look

theorem Follow.at {L : List Token} {ts : List STok} (h : Follow L ts) (p : Pos) (k : Token)
    (hk : k ∈ L) : (PS.mk p ts).at? 0 k = false := by
  cases ts with
  | nil => simp
  | cons t ts =>
    simp only [at_zero, beq_eq_false_iff_ne, ne_eq]
    intro e; subst e; exact h _ _ rfl hk

theorem Follow.among {L M : List Token} {ts : List STok} (h : Follow L ts) (p : Pos)
    (hk : ∀ k ∈ M, k ∈ L) : (PS.mk p ts).among 0 M = false := by
  cases ts with
  | nil => simp
  | cons t ts =>
    simp only [among_zero, List.contains_eq_mem, decide_eq_false_iff_not]
    intro e; exact h _ _ rfl (hk _ e)

theorem Derives.at0 {n : NT} {w K : List STok} {v : Val n} (d : Derives n w v)
    (hn : nullable n = false) (p : Pos) (k : Token) (hk : k ∉ heads n) :
    (PS.mk p (w ++ K)).at? 0 k = false :=
  (Follow.app (L := [k]) (K := K) d (by
    intro x hx hx'; simp at hx'; subst hx'; exact hk hx) hn).at p k (by simp)

theorem Derives.among0 {n : NT} {w K : List STok} {v : Val n} (d : Derives n w v)
    (hn : nullable n = false) (p : Pos) (L : List Token) (hk : ∀ k ∈ heads n, k ∈ L) :
    (PS.mk p (w ++ K)).among 0 L = true := by
  cases w with
  | nil => exact absurd rfl (d.ne_nil hn)
  | cons a w =>
    simp only [List.cons_append, among_zero, List.contains_eq_mem, decide_eq_true_eq]
    exact hk _ (d.headed _ _ rfl)

theorem Derives.among0_false {n : NT} {w K : List STok} {v : Val n} (d : Derives n w v)
    (hn : nullable n = false) (p : Pos) (L : List Token) (hk : ∀ k ∈ heads n, k ∉ L) :
    (PS.mk p (w ++ K)).among 0 L = false :=
  (Follow.app (K := K) d hk hn).among p (fun _ h => h)

/-! ### words of single-token nonterminals -/

theorem typeName_word {w : List STok} {v : Val .typeName} (d : Derives .typeName w v) :
    ∃ t, w = [t] ∧ (t.tok.kind = .byStrWithSize [] ∨ t.tok.kind = .eventType ∨
      t.tok.kind = .customIdentifier []) := by
  cases d with
  | typeNameBytes d => cases d with | byteString h => exact ⟨_, h, .inl rfl⟩
  | typeNameEvent h => exact ⟨_, h, .inr (.inl rfl)⟩
  | typeNameCustom d => cases d with | customId h => exact ⟨_, h, .inr (.inr rfl)⟩

theorem regularId_word {w : List STok} {v : Val .regularId} (d : Derives .regularId w v) :
    ∃ a x b, w = [⟨a, .identifier x, b⟩] := by cases d with | regularId h => exact ⟨_, _, _, h⟩
theorem specialId_word {w : List STok} {v : Val .specialId} (d : Derives .specialId w v) :
    ∃ a x b, w = [⟨a, .specialIdentifier x, b⟩] := by
  cases d with | specialId h => exact ⟨_, _, _, h⟩
theorem hexNumber_word {w : List STok} {v : Val .hexNumber} (d : Derives .hexNumber w v) :
    ∃ a x b, w = [⟨a, .hexNumber x, b⟩] := by cases d with | hexNumber h => exact ⟨_, _, _, h⟩
theorem signedInt_word {w : List STok} {v : Val .signedInt} (d : Derives .signedInt w v) :
    ∃ a x b, w = [⟨a, .number x, b⟩] := by cases d with | signedInt h => exact ⟨_, _, _, h⟩
theorem stringLit_word {w : List STok} {v : Val .stringLit} (d : Derives .stringLit w v) :
    ∃ a x b, w = [⟨a, .stringLiteral x, b⟩] := by cases d with | stringLit h => exact ⟨_, _, _, h⟩

theorem isVar_varId {w K : List STok} {v : Val .varId} (d : Derives .varId w v) (p : Pos) :
    (PS.mk p (w ++ K)).isVar = true := by
  cases d with
  | varName d => obtain ⟨a, x, b, rfl⟩ := regularId_word d; simp [PS.isVar]
  | varSpecial d => obtain ⟨a, x, b, rfl⟩ := specialId_word d; simp [PS.isVar]
  | varNamespace h d1 d2 =>
    obtain ⟨t, rfl, ht⟩ := typeName_word d1
    obtain ⟨a, x, b, rfl⟩ := regularId_word d2
    subst h
    rcases ht with ht | ht | ht <;> simp [PS.isVar, ht, typeNameFirst]

theorem isVar_metaId {w K : List STok} {v : Val .metaId} (d : Derives .metaId w v) (p : Pos)
    (hK : Follow [.dot] K) : (PS.mk p (w ++ K)).isVar = false := by
  have hK' := hK.at p .dot (by simp)
  cases d with
  | metaName d =>
    obtain ⟨t, rfl, ht⟩ := typeName_word d
    rcases ht with ht | ht | ht <;> simp [PS.isVar, ht, hK']
  | metaNamespace h d1 d2 =>
    obtain ⟨t, rfl, ht⟩ := typeName_word d1
    obtain ⟨u, rfl, hu⟩ := typeName_word d2
    subst h
    rcases ht with ht | ht | ht <;> rcases hu with hu | hu | hu <;>
      simp [PS.isVar, ht, hu]
  | metaHexspace h d1 d2 =>
    obtain ⟨a, x, b, rfl⟩ := hexNumber_word d1
    subst h
    simp [PS.isVar, typeNameFirst]
  | metaByStr h => subst h; simp [PS.isVar, typeNameFirst]

theorem isLit_metaId {w K : List STok} {v : Val .metaId} (d : Derives .metaId w v) (p : Pos)
    (hK : Follow [.number []] K) : (PS.mk p (w ++ K)).isLit = false := by
  have hK' := hK.at p (.number []) (by simp)
  cases d with
  | metaName d =>
    obtain ⟨t, rfl, ht⟩ := typeName_word d
    rcases ht with ht | ht | ht <;> simp [PS.isLit, ht, hK']
  | metaNamespace h d1 d2 =>
    obtain ⟨t, rfl, ht⟩ := typeName_word d1
    subst h
    rcases ht with ht | ht | ht <;> simp [PS.isLit, ht]
  | metaHexspace h d1 d2 =>
    obtain ⟨a, x, b, rfl⟩ := hexNumber_word d1
    subst h
    simp [PS.isLit, typeNameFirst]
  | metaByStr h => subst h; simp [PS.isLit, typeNameFirst]

theorem isLit_valueLit {w K : List STok} {v : Val .valueLit} (d : Derives .valueLit w v) (p : Pos)
    (hK : Follow [.dot] K) : (PS.mk p (w ++ K)).isLit = true := by
  have hK' := hK.at p .dot (by simp)
  cases d with
  | litInt h d1 d2 =>
    obtain ⟨t, rfl, ht⟩ := typeName_word d1
    obtain ⟨a, x, b, rfl⟩ := signedInt_word d2
    subst h
    rcases ht with ht | ht | ht <;> simp [PS.isLit, ht, typeNameFirst]
  | litHex d => obtain ⟨a, x, b, rfl⟩ := hexNumber_word d; simp [PS.isLit, hK']
  | litString d => obtain ⟨a, x, b, rfl⟩ := stringLit_word d; simp [PS.isLit]
  | litEmp h d1 d2 => subst h; simp [PS.isLit]

theorem isVar_valueLit {w K : List STok} {v : Val .valueLit} (d : Derives .valueLit w v) (p : Pos) :
    (PS.mk p (w ++ K)).isVar = false := by
  cases d with
  | litInt h d1 d2 =>
    obtain ⟨t, rfl, ht⟩ := typeName_word d1
    obtain ⟨a, x, b, rfl⟩ := signedInt_word d2
    subst h
    rcases ht with ht | ht | ht <;> simp [PS.isVar, ht]
  | litHex d =>
    obtain ⟨a, x, b, rfl⟩ := hexNumber_word d; simp [PS.isVar, typeNameFirst]
  | litString d =>
    obtain ⟨a, x, b, rfl⟩ := stringLit_word d; simp [PS.isVar, typeNameFirst]
  | litEmp h d1 d2 => subst h; simp [PS.isVar, typeNameFirst]

theorem isAddr_addressType {w K : List STok} {v : Val .addressType} (d : Derives .addressType w v)
    (p : Pos) : (PS.mk p (w ++ K)).isAddr = true := by
  cases d with
  | addrEmpty h d | addrLibrary h d =>
    obtain ⟨t, rfl, ht⟩ := typeName_word d
    subst h
    rcases ht with ht | ht | ht <;> simp [PS.isAddr, ht, typeNameFirst]
  | addrContract h d _ | addrSpecial h d _ =>
    obtain ⟨t, rfl, ht⟩ := typeName_word d
    subst h
    rcases ht with ht | ht | ht <;> simp [PS.isAddr, ht, typeNameFirst]

theorem isAddr_metaId {w K : List STok} {v : Val .metaId} (d : Derives .metaId w v) (p : Pos)
    (hK : Follow [.with_] K) : (PS.mk p (w ++ K)).isAddr = false := by
  have hK' := hK.at p .with_ (by simp)
  cases d with
  | metaName d =>
    obtain ⟨t, rfl, ht⟩ := typeName_word d
    rcases ht with ht | ht | ht <;> simp [PS.isAddr, hK']
  | metaNamespace h d1 d2 =>
    obtain ⟨t, rfl, ht⟩ := typeName_word d1
    subst h
    rcases ht with ht | ht | ht <;> simp [PS.isAddr]
  | metaHexspace h d1 d2 =>
    obtain ⟨a, x, b, rfl⟩ := hexNumber_word d1
    subst h
    simp [PS.isAddr, typeNameFirst]
  | metaByStr h => subst h; simp [PS.isAddr, typeNameFirst]

/-! ### follow sets and measure -/

def badRemaining : List Token := .arrow :: .dot :: .with_ :: typeArgFirst
def badExpr : List Token :=
  .dot :: .with_ :: .openBrace :: .number [] :: (varFirst ++ typeArgFirst)
def badStatement : List Token :=
  [.openBracket, .openParen, .leftArrow, .colonEquals, .equals] ++ badExpr

/-- terminals that must not follow a complete word of the nonterminal, because the nonterminal
could be continued with them (or a lookahead decision would go wrong) -/
def bad : NT → List Token
  | .importedName => [.as_]
  | .importDecls => .import_ :: .as_ :: typeNameFirst
  | .metaId => [.dot]
  | .builtinArgs => varFirst
  | .remaining => .dot :: .with_ :: typeArgFirst
  | .scillaType | .funSig | .typeAnn | .typedId | .paramPair | .nextParamPair | .addressField
  | .nextAddressField => badRemaining
  | .addressFieldList => .comma :: badRemaining
  | .typeArg | .mapKey | .mapValue | .mapValueArgs | .messageEntry | .nextMessage | .atomic
  | .valueLit => [.dot, .with_]
  | .mapValueAllowing => .dot :: .with_ :: first .mapValueArgs
  | .fullExpr | .pmExprClause | .contractField => badExpr
  | .typeAlt => .of_ :: .dot :: .with_ :: typeArgFirst
  | .librarySingle => .equals :: .pipe :: .of_ :: badExpr
  | .libraryDef => .let_ :: .type :: .equals :: .pipe :: .of_ :: badExpr
  | .pattern => .dot :: first .argPattern
  | .argPattern => [.dot]
  | .statement | .nextStatement | .remoteFetch => badStatement
  | .stmtBlock => .semicolon :: badStatement
  | .pmClause => .semicolon :: (badStatement ++ statementFirst)
  | .contractDef | .program => .field :: .transition :: .procedure :: badExpr
  | .star n | .plus n | .opt n => bad n ++ first n
  | _ => []

/-- nonterminals other than `X*`, `X+`, `X?` -/
def NT.base : NT → Bool
  | .star _ | .plus _ | .opt _ => false
  | _ => true

/-- the lists of the grammar: repetition of a nonterminal none of whose words can be continued by
the first token of another -/
def good : NT → Bool
  | .star n | .plus n => n.base && (first n).all fun k => !(bad n).contains k
  | .opt n => n.base
  | _ => true

def rank : NT → Nat
  | .byteString | .customId | .regularId | .specialId | .hexNumber | .signedInt | .templateId
  | .stringLit => 1
  | .typeName => 2
  | .importedName | .metaId | .varId | .componentId => 3
  | .addressType => 4
  | .typeArg | .mapKey | .mapValue | .mapValueArgs | .remaining | .builtinArgs => 6
  | .valueLit => 4
  | .atomic => 5
  | .fullExpr | .funSig | .mapValueAllowing => 7
  | .scillaType => 8
  | .remoteFetch => 4
  | .statement => 5
  | .nextStatement | .stmtBlock | .typedId | .addressField | .nextAddressField => 8
  | .addressFieldList | .paramPair => 10
  | .nextParamPair => 11
  | .transDef | .procDef => 4
  | .star n | .plus n | .opt n => rank n + 1
  | _ => 12

theorem rank_le (n : NT) (h : good n = true) : 1 ≤ rank n ∧ rank n ≤ 13 := by
  have base : ∀ m : NT, m.base = true → rank m ≤ 12 := by
    intro m hm; cases m <;> first | (simp [NT.base] at hm; done) | simp [rank]
  constructor
  · cases n <;> simp [rank]
  · cases n with
    | star m => simp [good] at h; have := base m h.1; simp [rank]; omega
    | plus m => simp [good] at h; have := base m h.1; simp [rank]; omega
    | opt m => simp [good] at h; have := base m h; simp [rank]; omega
    | _ => simp [rank]

theorem base_not_nullable {n : NT} (h : n.base = true) : nullable n = false := by
  cases n <;> first | rfl | simp [NT.base] at h

theorem base_heads {n : NT} (h : n.base = true) : heads n = first n := by
  cases n <;> first | rfl | simp [NT.base] at h

end Verif
