import Verif.Proofs.PrintDerives
import Verif.Props.Layout
/-
C40: writing an interface and reading it back.  Spec/Print.lean says how an interface is written,
Spec/Lexical.lean (`Rendering`) how a token sequence is laid out as text.
-/
namespace Verif

/-- Every layout of every program with interface `c` (any version, imports, library, constraint, initial
values, transition bodies and procedures) is read as `c`. -/
theorem C40_round_trip (env : Env) (c : Contract) (w : List Token) (doc : Str) (hw : c.Writable)
    (hs : SpellsContract c w) (hr : Rendering w doc) : fromStr env doc = .ok c := by
  obtain ⟨p, hp, e⟩ := reads_contract hs hw
  obtain ⟨ts, hl, ht⟩ := C10_lex_rendering env.chars w doc hr
  have hb : bare ts = bare (lift w) := by rw [bare_lift]; exact ht
  rcases C18_parse ts (lift w) hb with ⟨-, h⟩ | ⟨q, p', hq, hp', e'⟩
  · rw [C16_complete _ _ hp] at h; simp at h
  · rw [C16_complete _ _ hp, Option.some.injEq] at hp'
    subst hp'
    rw [fromStr_parsed hl hq, C26_positions env.dbg q p e', C24_tree _ _ _ e]

/-! ### The plain printer -/

theorem printable_natDigits (n : Nat) : Printable (.byStrWithSize (str! "ByStr" ++ natDigits n)) := by
  refine ⟨natDigits n, rfl, (natDigits_value n).1, fun c hc => ?_⟩
  have := (natDigits_value n).2.1 c hc
  simp only [isDec, Bool.and_eq_true, decide_eq_true_eq] at this
  exact ⟨Nat.succ_le_of_lt this.1, this.2⟩

theorem printable_custom {s : Str} (h : WellFormed (.customIdentifier s)) (hk : s ∉ keywords)
    (hb : ¬ str! "ByStr" <+: s) : Printable (.customIdentifier s) := ⟨h, hk, hb⟩

theorem printable_base {s : Str}
    (h : s ∈ [str! "Int32", str! "Int64", str! "Int128", str! "Int256", str! "Uint32", str! "Uint64",
      str! "Uint128", str! "Uint256", str! "String", str! "BNum", str! "Bool", str! "Option",
      str! "List", str! "Pair"]) : Printable (.customIdentifier s) := by
  have hw : ∃ c w, s = c :: w ∧ isUpper c = true ∧ w.all isWord = true ∧ s ∉ keywords ∧
      ¬ str! "ByStr" <+: s := by
    simp only [List.mem_cons, List.not_mem_nil, or_false] at h
    rcases h with rfl | rfl | rfl | rfl | rfl | rfl | rfl | rfl | rfl | rfl | rfl | rfl | rfl | rfl <;>
      exact ⟨_, _, rfl, by decide, by decide, by decide, by decide⟩
  obtain ⟨c, w, rfl, h1, h2, h3, h4⟩ := hw
  rw [isUpper_iff] at h1
  exact ⟨⟨c, w, rfl, h1.1, h1.2, fun d hd => isWord_iff.1 (List.all_eq_true.1 h2 d hd)⟩, h3, h4⟩

/-- every token of the list is printable -/
def AllPrintable (w : List Token) : Prop := ∀ t ∈ w, Printable t

theorem AllPrintable.append {a b : List Token} (h : AllPrintable a) (h' : AllPrintable b) :
    AllPrintable (a ++ b) := fun t ht => (List.mem_append.1 ht).elim (h t) (h' t)

theorem AllPrintable.cons {a : Token} {b : List Token} (h : Printable a) (h' : AllPrintable b) :
    AllPrintable (a :: b) := fun t ht => (List.mem_cons.1 ht).elim (fun e => e ▸ h) (h' t)

theorem AllPrintable.nil : AllPrintable [] := fun t ht => by simp at ht

theorem AllPrintable.asArg {t : Ty} {w : List Token} (h : AllPrintable w) :
    AllPrintable (Verif.asArg t w) := by
  unfold Verif.asArg
  split
  · exact h
  · exact .cons trivial (.append h (.cons trivial .nil))

theorem AllPrintable.name {t : Ty} (h : t.Writable) : AllPrintable t.nameTok.toList := by
  intro k hk
  cases t <;> simp only [Ty.nameTok, Option.toList, List.mem_cons, List.not_mem_nil, or_false] at hk <;>
    subst hk
  case byStr => exact trivial
  case byStr20 => exact ⟨str! "20", rfl, by simp, fun c hc => isDigit_iff.1 (by revert c; decide)⟩
  case byStrX n =>
    split
    · exact ⟨str! "020", rfl, by simp, fun c hc => isDigit_iff.1 (by revert c; decide)⟩
    · exact printable_natDigits n
  case other s =>
    simp only [Ty.Writable] at h
    rcases h with h | h
    · rw [if_neg h.1.2.2]; exact h.1
    · obtain ⟨ds, e, -, -⟩ := h.1
      rw [if_pos ⟨ds, e.symm⟩]; exact h.1
  all_goals exact printable_base (by decide)

theorem AllPrintable.tag {tag : Str} (h : tag = str! "contract" ∨ tag = [] ∨ tag = str! "library" ∨
    Printable (.specialIdentifier tag)) : AllPrintable (tagToks tag) := by
  unfold tagToks
  split
  · exact .nil
  · split
    · exact .cons trivial .nil
    · split
      · exact .cons trivial .nil
      · rename_i h1 h2 h3
        rcases h with h | h | h | h
        · exact absurd h h2
        · exact absurd h h1
        · exact absurd h h3
        · exact .cons h .nil

mutual
theorem AllPrintable.type : ∀ t : Ty, t.Writable → AllPrintable t.toks
  | .map k v, h => by
    simp only [Ty.Writable] at h
    exact .cons trivial (.append (.asArg (.type k h.2.1)) (.asArg (.type v h.2.2)))
  | .option t, h => by
    simp only [Ty.Writable] at h
    exact .cons (printable_base (by decide)) (.asArg (.type t h))
  | .list t, h => by
    simp only [Ty.Writable] at h
    exact .cons (printable_base (by decide)) (.asArg (.type t h))
  | .pair a b, h => by
    simp only [Ty.Writable] at h
    exact .cons (printable_base (by decide)) (.append (.asArg (.type a h.1)) (.asArg (.type b h.2)))
  | .byStr20With tag fs, h => by
    simp only [Ty.Writable] at h
    refine .cons ⟨str! "20", rfl, by simp, fun c hc => isDigit_iff.1 (by revert c; decide)⟩
      (.cons trivial (.append (.tag ?_) (.append (.fields fs h.2) (.cons trivial .nil))))
    rcases h.1 with h | ⟨-, h⟩
    · exact .inl h
    · exact .inr h
  | .int32, h => .name h
  | .int64, h => .name h
  | .int128, h => .name h
  | .int256, h => .name h
  | .uint32, h => .name h
  | .uint64, h => .name h
  | .uint128, h => .name h
  | .uint256, h => .name h
  | .string, h => .name h
  | .bNum, h => .name h
  | .bool, h => .name h
  | .byStr, h => .name h
  | .byStr20, h => .name h
  | .byStrX _, h => .name h
  | .other _, h => .name h
theorem AllPrintable.fields : ∀ fs : List Field, fieldsWritable fs → AllPrintable (fieldsToks fs)
  | [], _ => .nil
  | ⟨x, t⟩ :: fs, h => by
    simp only [fieldsWritable] at h
    have := AllPrintable.fields fs h.2.2
    have h1 := AllPrintable.type t h.2.1
    cases fs with
    | nil => exact .cons trivial (.cons h.1 (.cons trivial h1))
    | cons f fs => exact .cons trivial (.cons h.1 (.cons trivial (.append h1 (.cons trivial this))))
end

theorem AllPrintable.field {f : Field} (h : fieldsWritable [f]) : AllPrintable f.toks := by
  cases f
  simp only [fieldsWritable] at h
  exact .cons h.1 (.cons trivial (.type _ h.2.1))

theorem AllPrintable.flatMap {α : Type} {f : α → List Token} {l : List α}
    (h : ∀ x ∈ l, AllPrintable (f x)) : AllPrintable (l.flatMap f) := by
  intro t ht
  obtain ⟨x, hx, ht⟩ := List.mem_flatMap.1 ht
  exact h x hx t ht

theorem fieldsWritable_mem {fs : List Field} (h : fieldsWritable fs) : ∀ f ∈ fs, fieldsWritable [f] := by
  induction fs with
  | nil => simp
  | cons f fs ih =>
    obtain ⟨h1, h2⟩ := fieldsWritable_cons h
    intro g hg
    rcases List.mem_cons.1 hg with rfl | hg
    · exact h1
    · exact ih h2 g hg

theorem AllPrintable.params {fs : List Field} (h : fieldsWritable fs) : AllPrintable (paramsToks fs) := by
  cases fs with
  | nil => exact .cons trivial (.cons trivial .nil)
  | cons f fs =>
    have h' := fieldsWritable_mem h
    exact .cons trivial (.append (.field (h' f (by simp))) (.append (.flatMap fun g hg =>
      .cons trivial (.field (h' g (by simp [hg])))) (.cons trivial .nil)))

theorem AllPrintable.contract {c : Contract} (hw : c.Writable) (hn : c.Named) :
    AllPrintable c.toks := by
  have hx : Printable (.identifier (str! "x")) :=
    ⟨⟨'x', [], rfl, by decide, by decide, by simp⟩, by decide⟩
  have h0 : Printable (.number (str! "0")) :=
    ⟨[], str! "0", rfl, .inl rfl, by simp, fun c hc => isDigit_iff.1 (by revert c; decide)⟩
  refine .append (.cons trivial (.cons h0 (.cons trivial (.cons hn.name .nil))))
    (.append (.params hw.params) (.append (.flatMap fun f hf => ?_) (.flatMap fun t ht => ?_)))
  · exact .cons trivial (.append (.field (fieldsWritable_mem hw.fields f hf))
      (.cons trivial (.cons hx .nil)))
  · exact .cons trivial (.cons (hn.transitions t ht) (.append (.params (hw.transitions t ht))
      (.cons trivial .nil)))

theorem Layout.append {a b : Str} (h : Layout a) (h' : Layout b) : Layout (a ++ b) := by
  induction h with
  | nil => exact h'
  | white c s hc _ ih => exact .white c _ hc ih
  | comment body s hb _ ih =>
    have : str! "(*" ++ (body ++ (str! "*)" ++ s)) ++ b = str! "(*" ++ (body ++ (str! "*)" ++ (s ++ b))) := by
      simp
    rw [this]
    exact .comment body _ hb ih

theorem Rendering.layout {l s : Str} {w : List Token} (hl : Layout l) (h : Rendering w s) :
    Rendering w (l ++ s) := by
  cases h with
  | nil lay h => exact .nil _ (hl.append h)
  | cons lay t s ts h hp hs hr =>
    rw [← List.append_assoc]
    exact .cons _ t s ts (hl.append h) hp hs hr

theorem spaced_rendering : ∀ w : List Token, AllPrintable w → Rendering w (spaced w)
  | [], _ => .nil [] .nil
  | t :: w, h => by
    have ih := spaced_rendering w fun x hx => h x (List.mem_cons_of_mem _ hx)
    have hs : Layout [' '] := .white _ _ (.inl rfl) .nil
    have e : spaced (t :: w) = [] ++ (t.text ++ ([' '] ++ spaced w)) := by
      simp [spaced]
    rw [e]
    exact .cons [] t _ _ .nil (h t (by simp)) (C10_layout_separates t [' '] _ hs (by simp))
      (ih.layout hs)

theorem spells_more : ∀ fs : List Field, SpellsMore fs (fs.flatMap fun g => .comma :: g.toks)
  | [] => .nil
  | ⟨x, t⟩ :: fs => .cons ⟨x, t⟩ fs _ _ (.mk x t _ (.plain t)) (spells_more fs)

theorem spells_params : ∀ fs : List Field, SpellsParams fs (paramsToks fs)
  | [] => .none
  | ⟨x, t⟩ :: fs => .some _ _ _ _ (.mk x t _ (.plain t)) (spells_more fs)

theorem spells_fields : ∀ fs : List Field,
    SpellsFields fs (fs.flatMap fun f => .field :: (f.toks ++ [.equals, .identifier (str! "x")]))
  | [] => .nil
  | ⟨x, t⟩ :: fs => by
    have := SpellsFields.cons ⟨x, t⟩ fs _ [.identifier (str! "x")] _ (.mk x t _ (.plain t))
      ⟨_, .exprAtomic (.atomicVar (.varName (.regularId rfl)))⟩ (spells_fields fs)
    simpa [Field.toks] using this

theorem typeTok_contract (s : Str) : TypeNameTok s (contractTok s) := by
  unfold contractTok
  split
  · rename_i h; subst h; exact .event
  · split
    · exact .bytes _
    · exact .upper _

theorem nameTok_transition (s : Str) : NameTok s (transitionTok s) := by
  unfold transitionTok
  split
  · split
    · exact .lower _
    · exact .type _ _ (typeTok_contract _)
  · exact .type _ _ (typeTok_contract _)

theorem spells_components : ∀ ts : List Transition,
    SpellsComponents ts (ts.flatMap fun t =>
      .transition :: transitionTok t.name :: (paramsToks t.params ++ [.end_]))
  | [] => .nil
  | t :: ts => by
    have := SpellsComponents.transition t ts _ _ [.end_] _ (nameTok_transition t.name)
      (spells_params t.params) ⟨_, .compBody (w1 := []) rfl .optNone⟩ (spells_components ts)
    simpa using this

theorem spells_contract (c : Contract) : SpellsContract c c.toks :=
  .mk c (str! "0") _ [] [] (paramsToks c.initParams) [] _ _ (typeTok_contract _) ⟨_, .optNone⟩ ⟨_, .optNone⟩
    (spells_params c.initParams) ⟨_, .optNone⟩ (spells_fields c.fields)
    (spells_components c.transitions)

/-- Every interface with legal names and writable types is the interface of some document, for example of
its plain print-out. -/
theorem C40_print (env : Env) (c : Contract) (hw : c.Writable) (hn : c.Named) :
    fromStr env (spaced c.toks) = .ok c :=
  C40_round_trip env c _ _ hw (spells_contract c) (spaced_rendering _ (.contract hw hn))

/-- Different interfaces have different print-outs. -/
theorem C40_print_injective (c d : Contract) (hc : c.Writable) (hc' : c.Named) (hd : d.Writable)
    (hd' : d.Named) (h : spaced c.toks = spaced d.toks) : c = d := by
  have h1 := C40_print demoEnv c hc hc'
  have h2 := C40_print demoEnv d hd hd'
  rw [h, h2] at h1
  simpa using h1.symm

/-! A contract that meets the hypotheses: maps, options, pairs, user types, byte strings and an address
type with a field. -/

def tourContract : Contract where
  name := str! "Token"
  initParams := [⟨str! "owner", .byStr20⟩, ⟨str! "peer", .byStr20With (str! "contract")
    [⟨str! "balances", .map .byStr20 .uint128⟩, ⟨str! "n", .byStrX 33⟩]⟩]
  fields := [⟨str! "m", .map .byStr20 (.map .string (.option (.pair (.other (str! "T")) (.list .int32))))⟩]
  transitions := [⟨str! "Transfer", [⟨str! "to", .byStr20With (str! "_codehash") []⟩,
    ⟨str! "v", .byStr20With [] []⟩]⟩, ⟨str! "ping", []⟩]

theorem isName {s : Str} {c : Char} {w : Str} (e : s = c :: w) (h : isLower c = true)
    (hw : w.all isWord = true) (hk : s ∉ keywords) : Printable (.identifier s) := by
  subst e
  rw [isLower_iff] at h
  exact ⟨⟨c, w, rfl, h.1, h.2, fun d hd => isWord_iff.1 (List.all_eq_true.1 hw d hd)⟩, hk⟩

theorem isCustom {s : Str} {c : Char} {w : Str} (e : s = c :: w) (h : isUpper c = true)
    (hw : w.all isWord = true) (hk : s ∉ keywords) (hb : ¬ str! "ByStr" <+: s) :
    Printable (.customIdentifier s) := by
  subst e
  rw [isUpper_iff] at h
  exact ⟨⟨c, w, rfl, h.1, h.2, fun d hd => isWord_iff.1 (List.all_eq_true.1 hw d hd)⟩, hk, hb⟩

theorem tour_writable : tourContract.Writable where
  params := by
    simp only [tourContract, fieldsWritable, Ty.Writable, Ty.nameTok]
    exact ⟨isName rfl rfl rfl (by decide), trivial, isName rfl rfl rfl (by decide),
      ⟨.inl trivial, isName rfl rfl rfl (by decide), ⟨rfl, trivial, trivial⟩,
        isName rfl rfl rfl (by decide), by decide, trivial⟩, trivial⟩
  fields := by
    simp only [tourContract, fieldsWritable, Ty.Writable, Ty.nameTok]
    exact ⟨isName rfl rfl rfl (by decide), ⟨rfl, trivial, rfl, trivial,
      .inl ⟨isCustom rfl rfl rfl (by decide) (by decide), by decide⟩, trivial⟩, trivial⟩
  transitions := by
    intro t ht
    simp only [tourContract, List.mem_cons, List.not_mem_nil, or_false] at ht
    rcases ht with rfl | rfl
    · simp only [fieldsWritable, Ty.Writable]
      refine ⟨isName rfl rfl rfl (by decide), ⟨.inr ⟨trivial, .inr (.inr ⟨⟨_, rfl, ?_⟩, by decide⟩)⟩, trivial⟩,
        isName rfl rfl rfl (by decide), ⟨.inr ⟨trivial, .inl trivial⟩, trivial⟩, trivial⟩
      intro d hd
      exact isWord_iff.1 (List.all_eq_true.1 (by decide : (str! "codehash").all isWord = true) d hd)
    · simp only [fieldsWritable]

theorem tour_named : tourContract.Named where
  name := isCustom rfl rfl rfl (by decide) (by decide)
  transitions := by
    intro t ht
    simp only [tourContract, List.mem_cons, List.not_mem_nil, or_false] at ht
    rcases ht with rfl | rfl
    · exact isCustom rfl rfl rfl (by decide) (by decide)
    · exact isName rfl rfl rfl (by decide)

example (env : Env) : fromStr env (spaced tourContract.toks) = .ok tourContract :=
  C40_print env _ tour_writable tour_named

end Verif
