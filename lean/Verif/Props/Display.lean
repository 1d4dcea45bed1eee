import Verif.Props.RoundTrip
import Verif.Proofs.StripRead
/-
C32, C33: the displayed text of a type.
-/
namespace Verif

/-- rejected with an error -/
def ParseResult.isSyntaxError : ParseResult → Bool
  | .err (.parseError _) => true
  | _ => false

/-! ## C32 — displayed text that can be read back -/

theorem Rendering.append {a b : List Token} {s q : Str} (h : Rendering a s) (h' : Rendering b q)
    (hq : ∀ t, Separated t q) : Rendering (a ++ b) (s ++ q) := by
  induction h with
  | nil lay hl => exact h'.layout hl
  | cons lay t s ts hl hp hs _ ih =>
    have : lay ++ (t.text ++ s) ++ q = lay ++ (t.text ++ (s ++ q)) := by simp
    rw [this]
    refine .cons lay t _ _ hl hp ?_ ih
    cases s with
    | nil => exact hq t
    | cons c s => exact fun d hd => hs d hd

theorem separated_close (t : Token) (q : Str) : Separated t (')' :: q) := by
  intro c hc
  simp at hc; subst hc
  have : ¬ NameChar ')' := by rw [← isWord_iff]; decide
  have h2 : ¬ Digit ')' := by rw [← isDigit_iff]; decide
  exact ⟨by decide, fun _ => this, fun _ => by decide, fun _ => by decide, fun _ => by decide,
    fun _ => ⟨by decide, h2⟩⟩

theorem separated_blank (t : Token) (q : Str) : Separated t (' ' :: q) :=
  C10_layout_separates t [' '] q (.white _ _ (.inl rfl) .nil) (by simp)

theorem Rendering.blank {s : Str} {w : List Token} (h : Rendering w s) : Rendering w (' ' :: s) :=
  h.layout (.white _ _ (.inl rfl) .nil : Layout [' '])

theorem Rendering.one {t : Token} (h : Printable t) : Rendering [t] t.text := by
  have := Rendering.cons [] t [] [] .nil h (by intro c hc; simp at hc) (.nil [] .nil)
  simpa using this

/-- the token, then text that cannot merge with it -/
theorem Rendering.tok {t : Token} {w : List Token} {s : Str} (h : Printable t) (hr : Rendering w s)
    (hs : Separated t s) : Rendering (t :: w) (t.text ++ s) := by
  have := Rendering.cons [] t s w .nil h hs hr
  simpa using this

theorem Rendering.parens {w : List Token} {s : Str} (hr : Rendering w s)
    (hs : Separated .openParen s) : Rendering (inParens w) ('(' :: (s ++ [')'])) := by
  have h1 : Rendering [.closeParen] [')'] := Rendering.one (t := .closeParen) trivial
  have h2 := hr.append h1 fun t => separated_close t []
  refine Rendering.tok (t := .openParen) trivial h2 ?_
  cases s with
  | nil => exact separated_close _ []
  | cons c s => exact fun d hd => hs d hd

theorem separated_word {c : Char} {q : Str} (h : isUpper c = true) : Separated .openParen (c :: q) := by
  intro d hd
  simp at hd; subst hd
  have hc : c.toNat < 128 ∧ c ≠ '*' := by
    simp [isUpper] at h
    constructor
    · omega
    · rintro rfl; revert h; decide
  exact ⟨hc.1, by simp [Token.wordy], by simp, by simp, fun _ => hc.2, by simp⟩

theorem separated_plain (k : Token) (c : Char) (q : Str) (h : c.toNat < 128 ∧ isWord c = false ∧ c ≠ '>' ∧
    c ≠ '=' ∧ c ≠ '*' ∧ isDigit c = false) : Separated k (c :: q) := by
  intro d hd
  simp at hd; subst hd
  have h1 : ¬ NameChar c := by rw [← isWord_iff, h.2.1]; simp
  have h2 : ¬ Digit c := by rw [← isDigit_iff, h.2.2.2.2.2]; simp
  exact ⟨h.1, fun _ => h1, fun _ => h.2.2.1, fun _ => h.2.2.2.1, fun _ => h.2.2.2.2.1,
    fun _ => ⟨h.2.2.1, h2⟩⟩

/-- text after the first field -/
def displayMore : List Field → Str
  | [] => []
  | f :: fs => str! ", " ++ displayFields (f :: fs)

theorem displayFields_cons (x : Str) (t : Ty) (fs : List Field) :
    displayFields (⟨x, t⟩ :: fs) = str! "field " ++ (x ++ (str! ": " ++ (t.display ++ displayMore fs))) := by
  cases fs <;> simp [displayFields, displayMore]

theorem byStr20_printable : Printable (.byStrWithSize (str! "ByStr20")) :=
  ⟨str! "20", rfl, by simp, fun c hc => isDigit_iff.1 (by revert c; decide)⟩

theorem rendering_field {x : Str} {w v : List Token} {d r : Str} (hx : Printable (.identifier x))
    (hw : Rendering w d) (hv : Rendering v r) (hs : ∀ k, Separated k r) :
    Rendering (.identifier x :: .colon :: (w ++ v)) (x ++ (str! ": " ++ (d ++ r))) := by
  have a := hw.append hv hs
  have b := Rendering.tok (t := .colon) trivial a.blank (separated_blank _ _)
  exact Rendering.tok hx b (separated_plain _ _ _ (by decide))

mutual
/-- the displayed text of a type is a layout of its displayed spelling -/
theorem display_rendering : ∀ t : Ty, t.Writable → Rendering t.shown t.display
  | .map k v, hw => by
    simp only [Ty.Writable] at hw
    have hk := display_rendering k hw.2.1
    have hv := display_rendering v hw.2.2
    have h1 := hv.append (Rendering.one (t := .closeParen) trivial) fun t => separated_close t []
    have h2 := Rendering.tok (t := .comma) trivial h1.blank (separated_blank _ _)
    have h3 := hk.append h2 fun t => separated_plain t _ _ (by decide)
    have h4 := Rendering.tok (t := .map) trivial h3.blank (separated_blank _ _)
    have h5 := Rendering.tok (t := .openParen) trivial h4 (separated_word rfl)
    simpa [Ty.display, Token.text, Ty.shown] using h5
  | .byStr20With tag [], hw => by
    simp only [Ty.Writable] at hw
    have he := (Rendering.one (t := .end_) trivial).blank
    have h0 : Rendering (tagToks tag ++ [.end_]) (tag ++ (' ' :: Token.text .end_)) := by
      rcases hw.1 with rfl | ⟨-, rfl | rfl | h⟩
      · exact Rendering.tok (t := .contract) trivial he (separated_blank _ _)
      · exact he
      · exact Rendering.tok (t := .library) trivial he (separated_blank _ _)
      · have e : tagToks tag = [.specialIdentifier tag] := by
          obtain ⟨⟨q, rfl, -⟩, h2⟩ := h
          simp [tagToks]
        rw [e]
        exact Rendering.tok h he (separated_blank _ _)
    have h1 := Rendering.tok (t := .with_) trivial h0.blank (separated_blank _ _)
    have h2 := Rendering.tok byStr20_printable h1.blank (separated_blank _ _)
    simpa [Ty.display, displayFields, Token.text, Ty.shown] using h2
  | .byStr20With tag (⟨x, t⟩ :: fs), hw => by
    simp only [Ty.Writable, fieldsWritable] at hw
    have ht : tag = str! "contract" := by
      rcases hw.1 with h | ⟨h, -⟩
      · exact h
      · simp at h
    subst ht
    have hd := display_rendering t hw.2.2.1
    have hm := display_more fs hw.2.2.2
    have he := (Rendering.one (t := .end_) trivial).blank
    have h1 := hm.1.append he fun k => separated_blank k _
    have h2 := rendering_field hw.2.1 hd h1 (by
      intro k
      cases fs with
      | nil => exact separated_blank k _
      | cons f fs => exact separated_plain k _ _ (by decide))
    have hc : Printable (.identifier (str! "contractfield")) := isName rfl rfl rfl (by decide)
    have h3 := Rendering.tok hc h2.blank (separated_blank _ _)
    have h4 := Rendering.tok (t := .with_) trivial h3.blank (separated_blank _ _)
    have h5 := Rendering.tok byStr20_printable h4.blank (separated_blank _ _)
    simpa [Ty.display, displayFields_cons, Token.text, Ty.shown] using h5
  | .option t, hw => by
    simp only [Ty.Writable] at hw
    have h := display_rendering t hw
    have h1 := Rendering.tok (t := .customIdentifier (str! "Option")) (printable_base (by decide))
      h.blank (separated_blank _ _)
    simpa [Ty.display, Token.text, Ty.shown] using h1.parens (separated_word rfl)
  | .list t, hw => by
    simp only [Ty.Writable] at hw
    have h := display_rendering t hw
    have h1 := Rendering.tok (t := .customIdentifier (str! "List")) (printable_base (by decide))
      h.blank (separated_blank _ _)
    simpa [Ty.display, Token.text, Ty.shown] using h1.parens (separated_word rfl)
  | .pair a b, hw => by
    simp only [Ty.Writable] at hw
    have ha := display_rendering a hw.1
    have hb := display_rendering b hw.2
    have h1 := Rendering.tok (t := .customIdentifier (str! "Pair")) (printable_base (by decide))
      (ha.append hb.blank fun t => separated_blank t _).blank (separated_blank _ _)
    simpa [Ty.display, Token.text, Ty.shown] using h1.parens (separated_word rfl)
  | .int32, h => Rendering.one (t := .customIdentifier (str! "Int32")) (printable_base (by decide))
  | .int64, h => Rendering.one (t := .customIdentifier (str! "Int64")) (printable_base (by decide))
  | .int128, h => Rendering.one (t := .customIdentifier (str! "Int128")) (printable_base (by decide))
  | .int256, h => Rendering.one (t := .customIdentifier (str! "Int256")) (printable_base (by decide))
  | .uint32, h => Rendering.one (t := .customIdentifier (str! "Uint32")) (printable_base (by decide))
  | .uint64, h => Rendering.one (t := .customIdentifier (str! "Uint64")) (printable_base (by decide))
  | .uint128, h => Rendering.one (t := .customIdentifier (str! "Uint128")) (printable_base (by decide))
  | .uint256, h => Rendering.one (t := .customIdentifier (str! "Uint256")) (printable_base (by decide))
  | .string, h => Rendering.one (t := .customIdentifier (str! "String")) (printable_base (by decide))
  | .bNum, h => Rendering.one (t := .customIdentifier (str! "BNum")) (printable_base (by decide))
  | .bool, h => Rendering.one (t := .customIdentifier (str! "Bool")) (printable_base (by decide))
  | .byStr, h => Rendering.one (t := .byStr) trivial
  | .byStr20, h => Rendering.one (t := .byStrWithSize (str! "ByStr20")) byStr20_printable
  | .byStrX n, h => Rendering.one (t := .byStrWithSize (str! "ByStr" ++ natDigits n))
      (printable_natDigits n)
  | .other s, h => by
    simp only [Ty.Writable] at h
    rcases h with h | h
    · have := Rendering.one h.1
      simpa [Ty.shown, Ty.nameTok, if_neg h.1.2.2, Ty.display, Token.text] using this
    · obtain ⟨ds, e, -, -⟩ := id h.1
      have hp : str! "ByStr" <+: s := ⟨ds, e.symm⟩
      have := Rendering.one h.1
      simpa [Ty.shown, Ty.nameTok, if_pos hp, Ty.display, Token.text] using this
theorem display_more : ∀ fs : List Field, fieldsWritable fs →
    Rendering (shownMore fs) (displayMore fs) ∧ ∀ k, Separated k (displayMore fs)
  | [], _ => ⟨.nil [] .nil, fun k c hc => by simp [displayMore] at hc⟩
  | ⟨x, t⟩ :: fs, h => by
    simp only [fieldsWritable] at h
    have hd := display_rendering t h.2.1
    have hm := display_more fs h.2.2
    have h2 := rendering_field h.1 hd hm.1 hm.2
    have h3 := Rendering.tok (t := .field) trivial h2.blank (separated_blank _ _)
    have h4 := Rendering.tok (t := .comma) trivial h3.blank (separated_blank _ _)
    refine ⟨?_, fun k => separated_plain k _ _ (by decide)⟩
    simpa [displayMore, displayFields_cons, Token.text, shownMore] using h4
end

/-- Lexing, parsing and reading the displayed text of a type without maps and without fields of address
types gives the type back (with `ByStr20` for `ByStr020`). -/
theorem C32_display_type (U : CharClass) (t : Ty) (hw : t.Writable) (hp : t.Readable) :
    ∃ toks, lexDoc U t.display = some toks ∧
      ∃ v, Derives .scillaType toks v ∧ readTypeW v = .clean [] (some t.canon) := by
  obtain ⟨sts, hl, e⟩ := C10_lex_rendering U _ _ (display_rendering t hw)
  refine ⟨sts, hl, ?_⟩
  obtain ⟨v, hv, er⟩ := reads_spelled (.shown t hw hp) (canon_writable t hw)
  obtain ⟨v', hv'⟩ := (Derives.typeRem hv).relift sts (by rw [bare_lift]; exact e)
  refine ⟨v', hv', ?_⟩
  have d := hv'.strip
  have d' := (Derives.typeRem hv).strip
  rw [strip_eq_of_bare (b := sts) (by rw [bare_lift]; exact e.symm)] at d'
  have := C17_unambiguous_category _ rfl _ _ _ d d'
  rw [← readTypeW_strip, ← er, ← readTypeW_strip v]
  have hs : ∀ w : W NodeScillaType, NodeScillaType.stripW w = W.strip NodeScillaType.strip w := by
    rintro ⟨w, _, _⟩; rfl
  simp only [stripV] at this
  rw [hs, hs]
  exact congrArg _ this

/-- the displayed text, where a type is expected: as the type of a field, of a contract parameter and of
a transition parameter -/
def displayFrame (t : Ty) : Str :=
  str! "scilla_version 0\ncontract C (p : " ++ (t.display ++ (str! ")\nfield f : " ++ (t.display ++
    (str! " = x\ntransition T (q : " ++ (t.display ++ str! ")\nend")))))

theorem C32_display_in_contract (env : Env) (t : Ty) (hw : t.Writable) (hp : t.Readable) :
    fromStr env (displayFrame t) =
      .ok ⟨str! "C", [⟨str! "p", t.canon⟩], [⟨str! "f", t.canon⟩], [⟨str! "T", [⟨str! "q", t.canon⟩]⟩]⟩ := by
  have hx : ∀ c, isLower c = true → [c] ∉ keywords → Printable (.identifier [c]) :=
    fun c h h' => isName rfl h rfl h'
  have hf : ∀ x, Printable (.identifier x) → fieldsWritable [⟨x, t.canon⟩] := fun x h => by
    simp only [fieldsWritable]; exact ⟨h, canon_writable t hw, trivial⟩
  have hd := display_rendering t hw
  refine C40_round_trip env _
    (.scillaVersion :: .number (str! "0") :: ([] ++ ([] ++ .contract :: .customIdentifier (str! "C") ::
      ((.openParen :: ((.identifier (str! "p") :: .colon :: t.shown) ++ ([] ++ [.closeParen]))) ++
      ([] ++ ((.field :: ((.identifier (str! "f") :: .colon :: t.shown) ++ .equals ::
        ([.identifier (str! "x")] ++ []))) ++
      (.transition :: .customIdentifier (str! "T") ::
        ((.openParen :: ((.identifier (str! "q") :: .colon :: t.shown) ++ ([] ++ [.closeParen]))) ++
        ([.end_] ++ [])))))))))
    _ ⟨hf _ (hx 'p' rfl (by decide)), hf _ (hx 'f' rfl (by decide)), ?_⟩ ?_ ?_
  · intro u hu
    simp only [List.mem_cons, List.not_mem_nil, or_false] at hu
    subst hu
    exact hf _ (hx 'q' rfl (by decide))
  · exact .mk _ _ _ _ _ _ _ _ _ (.upper _) ⟨_, .optNone⟩ ⟨_, .optNone⟩
      (.some _ _ _ _ (.mk _ _ _ (.shown t hw hp)) .nil) ⟨_, .optNone⟩
      (.cons _ _ _ _ _ (.mk _ _ _ (.shown t hw hp))
        ⟨_, .exprAtomic (.atomicVar (.varName (.regularId rfl)))⟩ .nil)
      (.transition _ _ _ _ _ _ (.type _ _ (.upper _)) (.some _ _ _ _ (.mk _ _ _ (.shown t hw hp)) .nil)
        ⟨_, .compBody (w1 := []) rfl .optNone⟩ .nil)
  · have sepA : ∀ (k : Token) (c : Char) (q : Str), (c.toNat < 128 ∧ isWord c = false ∧ c ≠ '>' ∧ c ≠ '=' ∧
        c ≠ '*' ∧ isDigit c = false) → Separated k (c :: q) := by
      intro k c q h d hd
      simp at hd; subst hd
      have h1 : ¬ NameChar c := by rw [← isWord_iff, h.2.1]; simp
      have h2 : ¬ Digit c := by rw [← isDigit_iff, h.2.2.2.2.2]; simp
      exact ⟨h.1, fun _ => h1, fun _ => h.2.2.1, fun _ => h.2.2.2.1, fun _ => h.2.2.2.2.1,
        fun _ => ⟨h.2.2.1, h2⟩⟩
    have sepP : ∀ (c : Char) (q : Str), isLower c = true → Separated .openParen (c :: q) := by
      intro c q h d hd
      simp at hd; subst hd
      have hc : c.toNat < 128 ∧ c ≠ '*' := by
        simp [isLower] at h
        constructor
        · omega
        · rintro rfl; revert h; decide
      exact ⟨hc.1, by simp [Token.wordy], by simp, by simp, fun _ => hc.2, by simp⟩
    have nl : Layout ['\n'] := .white _ _ (.inr (by decide)) .nil
    have i : ∀ (s : Str), s ∈ [str! "p", str! "f", str! "q", str! "x"] → Printable (.identifier s) := by
      intro s hs
      simp only [List.mem_cons, List.not_mem_nil, or_false] at hs
      rcases hs with rfl | rfl | rfl | rfl <;> exact isName rfl rfl rfl (by decide)
    have u : ∀ (s : Str), s ∈ [str! "C", str! "T"] → Printable (.customIdentifier s) := by
      intro s hs
      simp only [List.mem_cons, List.not_mem_nil, or_false] at hs
      rcases hs with rfl | rfl <;> exact isCustom rfl rfl rfl (by decide) (by decide)
    have h0 : Printable (.number (str! "0")) :=
      ⟨[], str! "0", rfl, .inl rfl, by simp, fun c hc => isDigit_iff.1 (by revert c; decide)⟩
    have a1 := (Rendering.one (t := .end_) trivial).layout nl
    have a2 := Rendering.tok (t := .closeParen) trivial a1 (sepA _ _ _ (by decide))
    have a3 := hd.append a2 fun k => sepA k _ _ (by decide)
    have a4 := Rendering.tok (t := .colon) trivial a3.blank (sepA _ _ _ (by decide))
    have a5 := Rendering.tok (i (str! "q") (by decide)) a4.blank (sepA _ _ _ (by decide))
    have a6 := Rendering.tok (t := .openParen) trivial a5 (sepP _ _ rfl)
    have a7 := Rendering.tok (u (str! "T") (by decide)) a6.blank (sepA _ _ _ (by decide))
    have a8 := Rendering.tok (t := .transition) trivial a7.blank (sepA _ _ _ (by decide))
    have a9 := Rendering.tok (i (str! "x") (by decide)) (a8.layout nl) (sepA _ _ _ (by decide))
    have b1 := Rendering.tok (t := .equals) trivial a9.blank (sepA _ _ _ (by decide))
    have b2 := hd.append b1.blank fun k => sepA k _ _ (by decide)
    have b3 := Rendering.tok (t := .colon) trivial b2.blank (sepA _ _ _ (by decide))
    have b4 := Rendering.tok (i (str! "f") (by decide)) b3.blank (sepA _ _ _ (by decide))
    have b5 := Rendering.tok (t := .field) trivial b4.blank (sepA _ _ _ (by decide))
    have b6 := Rendering.tok (t := .closeParen) trivial (b5.layout nl) (sepA _ _ _ (by decide))
    have b7 := hd.append b6 fun k => sepA k _ _ (by decide)
    have b8 := Rendering.tok (t := .colon) trivial b7.blank (sepA _ _ _ (by decide))
    have b9 := Rendering.tok (i (str! "p") (by decide)) b8.blank (sepA _ _ _ (by decide))
    have c1 := Rendering.tok (t := .openParen) trivial b9 (sepP _ _ rfl)
    have c2 := Rendering.tok (u (str! "C") (by decide)) c1.blank (sepA _ _ _ (by decide))
    have c3 := Rendering.tok (t := .contract) trivial c2.blank (sepA _ _ _ (by decide))
    have c4 := Rendering.tok h0 (c3.layout nl) (sepA _ _ _ (by decide))
    have c5 := Rendering.tok (t := .scillaVersion) trivial c4.blank (sepA _ _ _ (by decide))
    simpa [displayFrame, Token.text] using c5

/-- The hypotheses are met by a nested type. -/
example : Ty.Writable (.pair (.option (.list (.other (str! "Foo")))) (.byStr20With (str! "contract") [])) ∧
    Ty.Readable (.pair (.option (.list (.other (str! "Foo")))) (.byStr20With (str! "contract") [])) := by
  simp only [Ty.Writable, Ty.Readable, and_true, fieldsWritable]
  exact ⟨.inl ⟨isCustom rfl rfl rfl (by decide) (by decide), by decide⟩, by simp⟩

/-! ### Displayed text that is not Scilla -/

/-- What a token scanner that looks for misplaced `,` and `with` is waiting for. -/
inductive Awaits where
  | anything | field | tag | nothing

def Awaits.step : Awaits → Token → Awaits
  | .anything, .comma => .field
  | .anything, .with_ => .tag
  | .anything, _ => .anything
  | .field, .field => .anything
  | .tag, .end_ => .anything
  | .tag, .contract => .anything
  | .tag, .library => .anything
  | .tag, .specialIdentifier _ => .anything
  | _, _ => .nothing

theorem Awaits.stuck (w : List Token) : w.foldl Awaits.step .nothing = .nothing := by
  induction w with
  | nil => rfl
  | cons t w ih => simpa [Awaits.step] using ih

/-- the nonterminals of types and names -/
def NT.typeLike : NT → Bool
  | .byteString | .typeName | .metaId | .varId | .remaining | .funSig | .scillaType | .typeArg | .addressType
  | .addressFieldList | .nextAddressField | .addressField | .mapKey | .mapValue | .mapValueArgs
  | .mapValueAllowing | .hexNumber | .regularId | .specialId | .customId | .templateId => true
  | .star n | .plus n | .opt n => n.typeLike
  | _ => false

/-- In a type every comma is followed by `field`, and every `with` by `end` or a tag. -/
theorem Derives.awaits {n : NT} {w : List STok} {v : Val n} (d : Derives n w v) (hn : n.typeLike = true) :
    (bare w).foldl Awaits.step .anything = .anything := by
  induction d with
  | nextAddrField h d ih =>
    subst h
    cases d with
    | addrField h d1 d2 =>
      subst h
      have := ih rfl
      simpa [Awaits.step] using this
  | addrSpecial h d1 d2 ih1 ih2 =>
    subst h
    cases d2 with
    | specialId h =>
      subst h
      have := ih1 rfl
      simp [this, Awaits.step]
  | _ => first
    | (simp [NT.typeLike] at hn; done)
    | (subst_vars; simp_all [NT.typeLike, Awaits.step, List.foldl_append]; done)

/-- The first token of displayed text is not `field`. -/
theorem shown_head (t : Ty) : ∃ k w, t.shown = k :: w ∧ k ≠ .field := by
  have key : ∀ (k : Token) (w : List Token), t.shown = k :: w → k ≠ .field →
      ∃ k w, t.shown = k :: w ∧ k ≠ .field := fun k w h h' => ⟨k, w, h, h'⟩
  cases t with
  | byStr20With tag fs =>
    cases fs with
    | nil => exact key _ _ (by simp only [Ty.shown]; rfl) (by simp)
    | cons f fs => obtain ⟨x, u⟩ := f; exact key _ _ (by simp only [Ty.shown]; rfl) (by simp)
  | other s => exact key _ _ (by simp only [Ty.shown, Ty.nameTok, Option.toList]; rfl) (by split <;> simp)
  | _ =>
    first
    | exact key _ _ (by simp only [Ty.shown, inParens]; rfl) (by simp)
    | exact key _ _ (by simp only [Ty.shown, Ty.nameTok, Option.toList]; rfl) (by simp)

/-- Types that are one word are displayed as one token. -/
theorem shown_single {t : Ty} (h : t.nameTok.isSome = true) :
    ∃ n, t.shown = [n] ∧ Awaits.step .anything n = .anything := by
  cases t <;> simp only [Ty.nameTok, Option.isSome_none, Bool.false_eq_true] at h
  case other s =>
    refine ⟨_, by simp only [Ty.shown, Ty.nameTok, Option.toList]; rfl, ?_⟩
    split <;> rfl
  all_goals exact ⟨_, by simp only [Ty.shown, Ty.nameTok, Option.toList]; rfl, rfl⟩

/-- Displayed text that is no Scilla type gets the scanner stuck. -/
theorem shown_awaits : ∀ t : Ty, t.Writable →
    (t.Readable ∧ t.shown.foldl Awaits.step .anything = .anything) ∨
    (¬ t.Readable ∧ t.shown.foldl Awaits.step .anything = .nothing)
  | .map k v, h => by
    right
    simp only [Ty.Writable] at h
    obtain ⟨n, hn, hs⟩ := shown_single h.1
    obtain ⟨c, w, e, hc⟩ := shown_head v
    refine ⟨by simp [Ty.Readable], ?_⟩
    have hc' : Awaits.step .field c = .nothing := by cases c <;> first | rfl | exact absurd rfl hc
    have h1 : Awaits.step .anything .openParen = .anything := rfl
    have h2 : Awaits.step .anything .map = .anything := rfl
    have h3 : Awaits.step .anything .comma = .field := rfl
    simp only [Ty.shown, hn, e, List.foldl_cons, List.foldl_append, List.foldl_nil, h1, h2, hs,
      h3, hc', Awaits.stuck]
    rfl
  | .option t, h => by
    simp only [Ty.Writable] at h
    rcases shown_awaits t h with ⟨h1, h2⟩ | ⟨h1, h2⟩
    · left; simp only [Ty.Readable, Ty.shown, inParens]
      exact ⟨h1, by simp [Awaits.step, h2]⟩
    · right; simp only [Ty.Readable, Ty.shown, inParens]
      exact ⟨h1, by simp [Awaits.step, h2]⟩
  | .list t, h => by
    simp only [Ty.Writable] at h
    rcases shown_awaits t h with ⟨h1, h2⟩ | ⟨h1, h2⟩
    · left; simp only [Ty.Readable, Ty.shown, inParens]
      exact ⟨h1, by simp [Awaits.step, h2]⟩
    · right; simp only [Ty.Readable, Ty.shown, inParens]
      exact ⟨h1, by simp [Awaits.step, h2]⟩
  | .pair a b, h => by
    simp only [Ty.Writable] at h
    rcases shown_awaits a h.1 with ⟨h1, h2⟩ | ⟨h1, h2⟩
    · rcases shown_awaits b h.2 with ⟨g1, g2⟩ | ⟨g1, g2⟩
      · left; simp only [Ty.Readable, Ty.shown, inParens]
        exact ⟨⟨h1, g1⟩, by simp [Awaits.step, h2, g2]⟩
      · right; simp only [Ty.Readable, Ty.shown, inParens]
        exact ⟨fun h => g1 h.2, by simp [Awaits.step, h2, g2]⟩
    · right; simp only [Ty.Readable, Ty.shown, inParens]
      exact ⟨fun h => h1 h.1, by simp [Awaits.step, h2, Awaits.stuck]⟩
  | .byStr20With tag [], _ => by
    left
    refine ⟨by simp [Ty.Readable], ?_⟩
    simp only [Ty.shown, tagToks]
    split
    · rfl
    · split
      · rfl
      · split <;> rfl
  | .byStr20With tag (⟨x, u⟩ :: fs), _ => by
    right
    refine ⟨by simp [Ty.Readable], ?_⟩
    simp [Ty.shown, Awaits.step, Awaits.stuck]
  | .int32, _ => .inl ⟨trivial, rfl⟩
  | .int64, _ => .inl ⟨trivial, rfl⟩
  | .int128, _ => .inl ⟨trivial, rfl⟩
  | .int256, _ => .inl ⟨trivial, rfl⟩
  | .uint32, _ => .inl ⟨trivial, rfl⟩
  | .uint64, _ => .inl ⟨trivial, rfl⟩
  | .uint128, _ => .inl ⟨trivial, rfl⟩
  | .uint256, _ => .inl ⟨trivial, rfl⟩
  | .string, _ => .inl ⟨trivial, rfl⟩
  | .bNum, _ => .inl ⟨trivial, rfl⟩
  | .bool, _ => .inl ⟨trivial, rfl⟩
  | .byStr, _ => .inl ⟨trivial, rfl⟩
  | .byStr20, _ => .inl ⟨trivial, rfl⟩
  | .byStrX _, _ => .inl ⟨trivial, rfl⟩
  | .other s, _ => by
    obtain ⟨n, hn, hs⟩ := shown_single (t := .other s) rfl
    exact .inl ⟨trivial, by rw [hn]; exact hs⟩

/-- C32, exactly: the displayed text of a type with legal names is always lexed, and it is a type of the
grammar if and only if the type contains no map and no address type with fields. -/
theorem C32_exact (U : CharClass) (t : Ty) (hw : t.Writable) :
    ∃ toks, lexDoc U t.display = some toks ∧
      ((∃ v, Derives .scillaType toks v) ↔ t.Readable) := by
  obtain ⟨sts, hl, e⟩ := C10_lex_rendering U _ _ (display_rendering t hw)
  refine ⟨sts, hl, ?_, ?_⟩
  · rintro ⟨v, hv⟩
    have ha := hv.awaits rfl
    rw [show bare sts = t.shown from e] at ha
    rcases shown_awaits t hw with ⟨h, _⟩ | ⟨_, h⟩
    · exact h
    · rw [h] at ha; simp at ha
  · intro hp
    obtain ⟨toks, hl', v, hv, _⟩ := C32_display_type U t hw hp
    rw [hl] at hl'
    obtain rfl := Option.some.inj hl'
    exact ⟨v, hv⟩

/-- A map deep inside a type, and an address type with a field. -/
example :
    Ty.Writable (.option (.pair .bool (.map .byStr20 .uint128))) ∧
    ¬ Ty.Readable (.option (.pair .bool (.map .byStr20 .uint128))) ∧
    Ty.display (.option (.pair .bool (.map .byStr20 .uint128))) =
      str! "(Option (Pair Bool (Map ByStr20, Uint128)))" ∧
    Ty.Writable (.byStr20With (str! "contract") [⟨str! "x", .uint32⟩]) ∧
    ¬ Ty.Readable (.byStr20With (str! "contract") [⟨str! "x", .uint32⟩]) ∧
    Ty.display (.byStr20With (str! "contract") [⟨str! "x", .uint32⟩]) =
      str! "ByStr20 with contractfield x: Uint32 end" := by
  refine ⟨by simp [Ty.Writable, Ty.nameTok], by simp [Ty.Readable], by decide +kernel, ?_,
    by simp [Ty.Readable], by decide +kernel⟩
  simp only [Ty.Writable, fieldsWritable, true_or, and_true, true_and]
  exact isName rfl rfl rfl (by decide)

end Verif
