import Verif.Spec.Desugar
import Verif.Proofs.LRComplete
import Verif.Proofs.GrammarFile
/-
Removing `X*`, `X+` and `X?` does not change the language.
-/
namespace Verif.LR

variable {start : GName}

def fileNames : List GName :=
  [.ByteString, .TypeNameIdentifier, .ImportedName, .ImportDeclarations, .MetaIdentifier, .VariableIdentifier,
   .BuiltinArguments, .RemainingTypes, .FunctionSignature, .ScillaType, .TypeArgument, .AddressType,
   .AddressTypeFieldList, .NextAddressTypeField, .AddressTypeField, .TypeMapKey, .TypeMapValue, .TypeMapValueArguments,
   .Program, .LibraryDefinition, .LibrarySingleDefinition, .TypedIdentifier, .TypeAnnotation, .TypeAlternativeClause,
   .TypeMapValueAllowingTypeArguments, .ContractTypeArguments, .FullExpression, .PatternMatchExpressionClause, .Pattern, .ArgumentPattern,
   .NextMessageEntry, .MessageEntry, .AtomicExpression, .ValueLiteral, .Statement, .NextStatement,
   .StatementBlock, .BlockchainFetchArguments, .ComponentId, .PatternMatchClause, .RemoteFetchStatement, .MapAccess,
   .ParameterPair, .NextParameterPair, .ComponentParameters, .ComponentDefinition, .TransitionDefinition, .ProcedureDefinition,
   .ComponentBody, .ContractDefinition, .ContractField, .WithConstraint, .HexNumber, .SignedInteger,
   .RegularId, .SpecialId, .TypeOrEnumLikeIdentifierId, .TemplateTypeId, .StringLiteral]

theorem fileNames_num (x : GName) : fileNames[num x]? = some x := by cases x <;> rfl

theorem num_inj {x y : GName} (h : num x = num y) : x = y := by
  have := fileNames_num x
  rw [h, fileNames_num] at this
  exact (Option.some.inj this).symm

theorem num_lt (x : GName) : num x < 59 := by
  have := (List.getElem?_eq_some_iff.1 (fileNames_num x)).1
  exact this

theorem numPlus_eq (x : GName) : numPlus x = 59 + num x := rfl

/-! ### Terminals -/

theorem code_some {t : Token} {a : Nat} (h : code t = some a) : fileTerminals[a]? = some t.kind := by
  unfold code at h
  obtain ⟨ha, h1, _⟩ := List.findIdx?_eq_some_iff_getElem.1 h
  rw [List.getElem?_eq_getElem ha]
  exact congrArg some (by simpa using h1)

theorem code_inj {t t' : Token} {a : Nat} (h : code t = some a) (h' : code t' = some a) : t.kind = t'.kind := by
  have := code_some h
  rw [code_some h'] at this
  exact (Option.some.inj this).symm

theorem kind_kind (t : Token) : t.kind.kind = t.kind := by cases t <;> rfl

theorem code_kind (t : Token) : code t.kind = code t := by unfold code; rw [kind_kind]

/-- a symbol of the file is used as it should: terminals are terminals of the file, repeated nonterminals are in the
list -/
def Ok : FSym → Prop
  | .tok k => (code k).isSome = true ∧ k.kind = k
  | .non _ => True
  | .opt _ => True
  | .star x => x ∈ repeated
  | .plus x => x ∈ repeated

theorem terminals_ok : ∀ q ∈ grammarFile, ∀ f ∈ q.rhs, ∀ k, f = .tok k → (code k).isSome = true ∧ k.kind = k := by
  have h : grammarFile.all (fun q => q.rhs.all fun f => match f with
      | .tok k => (code k).isSome && decide (k.kind = k)
      | _ => true) = true := by decide +kernel
  intro q hq f hf k hk
  have := List.all_eq_true.1 (List.all_eq_true.1 h q hq) f hf
  subst hk
  simpa using this

theorem grammarFile_ok {q : FProd} (hq : q ∈ grammarFile) : ∀ f ∈ q.rhs, Ok f := by
  intro f hf
  cases f with
  | tok k => exact terminals_ok q hq _ hf k rfl
  | non x => trivial
  | opt x => trivial
  | star x =>
    simp only [Ok, repeated, List.mem_eraseDups, List.mem_flatMap, List.mem_filterMap]
    exact ⟨q, hq, _, hf, rfl⟩
  | plus x =>
    simp only [Ok, repeated, List.mem_eraseDups, List.mem_flatMap, List.mem_filterMap]
    exact ⟨q, hq, _, hf, rfl⟩

/-! ### The productions -/

theorem mem_desugared {r : Rule} : r ∈ (desugaredFor start) ↔ r = ⟨numStart, [.n (num start)]⟩ ∨
    (∃ q ∈ grammarFile, ∃ β ∈ expand q.rhs, r = ⟨num q.lhs, β⟩) ∨
    ∃ x ∈ repeated, r = ⟨numPlus x, [.n (num x)]⟩ ∨ r = ⟨numPlus x, [.n (numPlus x), .n (num x)]⟩ := by
  simp only [desugaredFor, List.cons_append, List.mem_cons, List.mem_append, List.mem_flatMap, List.mem_map, List.not_mem_nil,
    or_false]
  constructor
  · rintro (h | ⟨q, hq, β, hβ, rfl⟩ | h)
    · exact .inl h
    · exact .inr (.inl ⟨q, hq, β, hβ, rfl⟩)
    · exact .inr (.inr h)
  · rintro (h | ⟨q, hq, β, hβ, rfl⟩ | h)
    · exact .inl h
    · exact .inr (.inl ⟨q, hq, β, hβ, rfl⟩)
    · exact .inr (.inr h)

theorem rule_num {r : Rule} {x : GName} (hr : r ∈ (desugaredFor start)) (h : r.lhs = num x) :
    ∃ q ∈ grammarFile, q.lhs = x ∧ r.rhs ∈ expand q.rhs := by
  have hx := num_lt x
  rcases mem_desugared.1 hr with rfl | ⟨q, hq, β, hβ, rfl⟩ | ⟨y, _, rfl | rfl⟩
  · simp only [numStart] at h; omega
  · exact ⟨q, hq, num_inj h, hβ⟩
  · simp only [numPlus_eq] at h; omega
  · simp only [numPlus_eq] at h; omega

theorem rule_plus {r : Rule} {x : GName} (hr : r ∈ (desugaredFor start)) (h : r.lhs = numPlus x) :
    r.rhs = [.n (num x)] ∨ r.rhs = [.n (numPlus x), .n (num x)] := by
  have hx := num_lt x
  rcases mem_desugared.1 hr with rfl | ⟨q, hq, β, hβ, rfl⟩ | ⟨y, _, rfl | rfl⟩
  · simp only [numStart, numPlus_eq] at h; omega
  · have := num_lt q.lhs
    simp only [numPlus_eq] at h; omega
  · have e : y = x := num_inj (by simp only [numPlus_eq] at h; omega)
    subst e; exact .inl rfl
  · have e : y = x := num_inj (by simp only [numPlus_eq] at h; omega)
    subst e; exact .inr rfl

theorem plus_one {x : GName} (hx : x ∈ repeated) {u : List Nat} (h : Der (desugaredFor start) [.n (num x)] u) :
    Der (desugaredFor start) [.n (numPlus x)] u :=
  Der.rule (r := ⟨numPlus x, [.n (num x)]⟩) (mem_desugared.2 (.inr (.inr ⟨x, hx, .inl rfl⟩))) h

theorem plus_more {x : GName} (hx : x ∈ repeated) {u v : List Nat} (h : Der (desugaredFor start) [.n (numPlus x)] u)
    (h' : Der (desugaredFor start) [.n (num x)] v) : Der (desugaredFor start) [.n (numPlus x)] (u ++ v) :=
  Der.rule (r := ⟨numPlus x, [.n (numPlus x), .n (num x)]⟩) (mem_desugared.2 (.inr (.inr ⟨x, hx, .inr rfl⟩))) (h.cons h')

theorem Der.cons_inv {G : List Rule} {X : Sym} {α : List Sym} {w : List Nat} (h : Der G (X :: α) w) :
    ∃ u v, w = u ++ v ∧ Der G [X] u ∧ Der G α v := by
  cases h with
  | t h => exact ⟨[_], _, rfl, .t .nil, h⟩
  | n hr h1 h2 => exact ⟨_, _, rfl, Der.rule hr h1, h2⟩

theorem Der.single_inv {G : List Rule} {x : Nat} {w : List Nat} (h : Der G [.n x] w) :
    ∃ r ∈ G, r.lhs = x ∧ Der G r.rhs w := by
  generalize hα : [Sym.n x] = α at h
  cases h with
  | nil => cases hα
  | t h => cases hα
  | n hr h1 h2 =>
    injection hα with e1 e2
    injection e1 with e1
    subst e2
    rw [h2.nil_inv, List.append_nil]
    exact ⟨_, hr, e1.symm, h1⟩

theorem expand_ne {q : FProd} (hq : q ∈ grammarFile) {β : List Sym} (hβ : β ∈ expand q.rhs) : β ≠ [] := by
  have h : grammarFile.all (fun q => (expand q.rhs).all fun β => !β.isEmpty) = true := by decide +kernel
  have := List.all_eq_true.1 (List.all_eq_true.1 h q hq) β hβ
  rintro rfl
  simp at this

theorem desugared_ne {r : Rule} (hr : r ∈ (desugaredFor start)) : r.rhs ≠ [] := by
  rcases mem_desugared.1 hr with rfl | ⟨q, hq, β, hβ, rfl⟩ | ⟨y, _, rfl | rfl⟩
  · simp
  · exact expand_ne hq hβ
  · simp
  · simp

/-- `X+` is left-recursive; it can also be extended at the left -/
theorem plus_prepend {x : GName} (hx : x ∈ repeated) {u : List Nat} (hu : Der (desugaredFor start) [.n (num x)] u) :
    ∀ n v, v.length ≤ n → Der (desugaredFor start) [.n (numPlus x)] v → Der (desugaredFor start) [.n (numPlus x)] (u ++ v) := by
  intro n
  induction n with
  | zero =>
    intro v hv h
    exact absurd (List.eq_nil_of_length_eq_zero (Nat.le_zero.1 hv)) (h.ne_nil (fun _ => desugared_ne) (by simp))
  | succ n ih =>
    intro v hv h
    obtain ⟨r, hr, hl, hd⟩ := h.single_inv
    rcases rule_plus hr hl with e | e
    · rw [e] at hd
      exact plus_more hx (plus_one hx hu) hd
    · rw [e] at hd
      obtain ⟨v1, v2, rfl, h1, h2⟩ := hd.cons_inv
      have hne := h2.ne_nil (fun _ => desugared_ne) (by simp)
      have : 0 < v2.length := List.length_pos_iff.2 hne
      rw [List.length_append] at hv
      rw [← List.append_assoc]
      exact plus_more hx (ih v1 (by omega) h1) h2

/-! ### From the file to the numbered grammar -/

theorem mem_expand_cons {f : FSym} {α : List FSym} {β : List Sym} :
    β ∈ expand (f :: α) ↔ ∃ a ∈ alts f, ∃ β' ∈ expand α, β = a ++ β' := by
  simp only [expand, List.mem_flatMap, List.mem_map]
  exact ⟨fun ⟨a, ha, β', hβ, e⟩ => ⟨a, ha, β', hβ, e.symm⟩, fun ⟨a, ha, β', hβ, e⟩ => ⟨a, ha, β', hβ, e.symm⟩⟩

theorem gen_der {α : List FSym} {w : List Token} (h : Gen α w) : (∀ f ∈ α, Ok f) →
    ∃ β ∈ expand α, ∃ c : List Nat, w.map code = c.map some ∧ Der (desugaredFor start) β c := by
  have single : ∀ {x : GName} {u : List Token}, (∃ β ∈ expand [.non x], ∃ c : List Nat, u.map code = c.map some ∧
      Der (desugaredFor start) β c) → ∃ c : List Nat, u.map code = c.map some ∧ Der (desugaredFor start) [.n (num x)] c := by
    rintro x u ⟨β, hβ, c, hc, hd⟩
    simp only [expand, alts, List.flatMap_cons, List.flatMap_nil, List.map_cons, List.map_nil, List.append_nil,
      List.mem_singleton] at hβ
    subst hβ
    exact ⟨c, hc, hd⟩
  have nonOk : ∀ {x : GName}, ∀ f ∈ [FSym.non x], Ok f := by
    intro x f hf
    rw [List.mem_singleton.1 hf]
    trivial
  induction h with
  | nil => exact fun _ => ⟨[], by simp [expand], [], rfl, .nil⟩
  | @tok k t α w hk _ ih =>
    intro hok
    obtain ⟨β, hβ, c, hc, hd⟩ := ih fun f hf => hok f (.tail _ hf)
    obtain ⟨hs, hkk⟩ : (code k).isSome = true ∧ k.kind = k := hok (.tok k) (.head _)
    obtain ⟨a, ha⟩ := Option.isSome_iff_exists.1 hs
    refine ⟨.t a :: β, mem_expand_cons.2 ⟨[.t a], by simp [alts, ha], β, hβ, rfl⟩, a :: c, ?_, .t hd⟩
    have : code t = some a := by rw [← code_kind, hk, ha]
    simp [this, hc]
  | @non q α u w hq _ _ ih1 ih2 =>
    intro hok
    obtain ⟨β1, hβ1, c1, hc1, hd1⟩ := ih1 (grammarFile_ok hq)
    obtain ⟨β2, hβ2, c2, hc2, hd2⟩ := ih2 fun f hf => hok f (.tail _ hf)
    refine ⟨.n (num q.lhs) :: β2, mem_expand_cons.2 ⟨[.n (num q.lhs)], by simp [alts], β2, hβ2, rfl⟩, c1 ++ c2,
      by simp [hc1, hc2], ?_⟩
    exact Der.n (r := ⟨num q.lhs, β1⟩) (mem_desugared.2 (.inr (.inl ⟨q, hq, β1, hβ1, rfl⟩))) hd1 hd2
  | optNone _ ih =>
    intro hok
    obtain ⟨β, hβ, c, hc, hd⟩ := ih fun f hf => hok f (.tail _ hf)
    exact ⟨β, mem_expand_cons.2 ⟨[], by simp [alts], β, hβ, rfl⟩, c, hc, hd⟩
  | @optSome x α u w _ _ ih1 ih2 =>
    intro hok
    obtain ⟨c1, hc1, hd1⟩ := single (ih1 nonOk)
    obtain ⟨β2, hβ2, c2, hc2, hd2⟩ := ih2 fun f hf => hok f (.tail _ hf)
    exact ⟨.n (num x) :: β2, mem_expand_cons.2 ⟨[.n (num x)], by simp [alts], β2, hβ2, rfl⟩, c1 ++ c2,
      by simp [hc1, hc2], hd1.cons hd2⟩
  | starNil _ ih =>
    intro hok
    obtain ⟨β, hβ, c, hc, hd⟩ := ih fun f hf => hok f (.tail _ hf)
    exact ⟨β, mem_expand_cons.2 ⟨[], by simp [alts], β, hβ, rfl⟩, c, hc, hd⟩
  | @starCons x α u w _ _ ih1 ih2 =>
    intro hok
    have hx : x ∈ repeated := hok (.star x) (.head _)
    obtain ⟨c1, hc1, hd1⟩ := single (ih1 nonOk)
    obtain ⟨β2, hβ2, c2, hc2, hd2⟩ := ih2 hok
    obtain ⟨a, ha, β', hβ', rfl⟩ := mem_expand_cons.1 hβ2
    refine ⟨.n (numPlus x) :: β', mem_expand_cons.2 ⟨[.n (numPlus x)], by simp [alts], β', hβ', rfl⟩, c1 ++ c2,
      by simp [hc1, hc2], ?_⟩
    simp only [alts, List.mem_cons, List.not_mem_nil, or_false] at ha
    rcases ha with rfl | rfl
    · exact (plus_one hx hd1).cons hd2
    · obtain ⟨v1, v2, rfl, h1, h2⟩ := Der.cons_inv hd2
      rw [← List.append_assoc]
      exact (plus_prepend hx hd1 _ v1 (Nat.le_refl _) h1).cons h2
  | @plus x α u w _ _ ih1 ih2 =>
    intro hok
    have hx : x ∈ repeated := hok (.plus x) (.head _)
    obtain ⟨c1, hc1, hd1⟩ := single (ih1 nonOk)
    obtain ⟨β2, hβ2, c2, hc2, hd2⟩ := ih2 (by
      intro f hf
      rcases List.mem_cons.1 hf with rfl | hf
      · exact hx
      · exact hok f (.tail _ hf))
    obtain ⟨a, ha, β', hβ', rfl⟩ := mem_expand_cons.1 hβ2
    refine ⟨.n (numPlus x) :: β', mem_expand_cons.2 ⟨[.n (numPlus x)], by simp [alts], β', hβ', rfl⟩, c1 ++ c2,
      by simp [hc1, hc2], ?_⟩
    simp only [alts, List.mem_cons, List.not_mem_nil, or_false] at ha
    rcases ha with rfl | rfl
    · exact (plus_one hx hd1).cons hd2
    · obtain ⟨v1, v2, rfl, h1, h2⟩ := Der.cons_inv hd2
      rw [← List.append_assoc]
      exact (plus_prepend hx hd1 _ v1 (Nat.le_refl _) h1).cons h2

/-! ### And back -/

theorem gen_split {f : FSym} {α : List FSym} {w : List Token} (h : Gen (f :: α) w) :
    ∃ u v, w = u ++ v ∧ Gen [f] u ∧ Gen α v := by
  generalize hγ : f :: α = γ at h
  induction h generalizing f α with
  | nil => cases hγ
  | tok hk h _ => cases hγ; exact ⟨[_], _, rfl, .tok hk .nil, h⟩
  | non hq h1 h2 => cases hγ; exact ⟨_, _, rfl, by simpa using Gen.non hq h1 .nil, h2⟩
  | optNone h => cases hγ; exact ⟨[], _, rfl, .optNone .nil, h⟩
  | optSome h1 h2 => cases hγ; exact ⟨_, _, rfl, by simpa using Gen.optSome h1 .nil, h2⟩
  | starNil h => cases hγ; exact ⟨[], _, rfl, .starNil .nil, h⟩
  | starCons h1 _ _ ih =>
    cases hγ
    obtain ⟨u, v, rfl, h2, h3⟩ := ih rfl
    exact ⟨_, v, (List.append_assoc ..).symm, .starCons h1 h2, h3⟩
  | plus h1 h2 =>
    cases hγ
    obtain ⟨u, v, rfl, h2, h3⟩ := gen_split_star h2
    exact ⟨_, v, (List.append_assoc ..).symm, .plus h1 h2, h3⟩
where
  gen_split_star {x : GName} {α : List FSym} {w : List Token} (h : Gen (.star x :: α) w) :
      ∃ u v, w = u ++ v ∧ Gen [.star x] u ∧ Gen α v := by
    generalize hγ : FSym.star x :: α = γ at h
    induction h with
    | nil => cases hγ
    | tok => cases hγ
    | non => cases hγ
    | optNone => cases hγ
    | optSome => cases hγ
    | plus => cases hγ
    | starNil h => cases hγ; exact ⟨[], _, rfl, .starNil .nil, h⟩
    | starCons h1 _ _ ih =>
      cases hγ
      obtain ⟨u, v, rfl, h2, h3⟩ := ih rfl
      exact ⟨_, v, (List.append_assoc ..).symm, .starCons h1 h2, h3⟩

theorem star_snoc {x : GName} {u v : List Token} (h : Gen [.star x] u) (h' : Gen [.non x] v) : Gen [.star x] (u ++ v) := by
  generalize hγ : [FSym.star x] = γ at h
  induction h with
  | nil => cases hγ
  | tok => cases hγ
  | non => cases hγ
  | optNone => cases hγ
  | optSome => cases hγ
  | plus => cases hγ
  | starNil h =>
    cases hγ
    cases h
    have := Gen.starCons h' (.starNil .nil)
    simpa using this
  | starCons h1 _ _ ih =>
    cases hγ
    rw [List.append_assoc]
    exact .starCons h1 (ih rfl)

theorem plus_inv {x : GName} {α : List FSym} {w : List Token} (h : Gen (.plus x :: α) w) :
    ∃ u v, w = u ++ v ∧ Gen [.non x] u ∧ Gen (.star x :: α) v := by
  cases h with
  | plus h1 h2 => exact ⟨_, _, rfl, h1, h2⟩

theorem plus_snoc {x : GName} {w : List Token} (h : Gen [.plus x, .non x] w) : Gen [.plus x] w := by
  obtain ⟨u, v, rfl, h1, h2⟩ := plus_inv h
  obtain ⟨v1, v2, rfl, h3, h4⟩ := gen_split h2
  exact .plus h1 (star_snoc h3 h4)

theorem plus_cons {x : GName} {α : List FSym} {u w : List Token} (h : Gen [.plus x] u) (h' : Gen α w) :
    Gen (.plus x :: α) (u ++ w) := h.app h'

theorem plus_star {x : GName} {α : List FSym} {u w : List Token} (h : Gen [.plus x] u) (h' : Gen α w) :
    Gen (.star x :: α) (u ++ w) := by
  obtain ⟨u1, u2, rfl, h1, h2⟩ := plus_inv h
  rw [List.append_assoc]
  exact .starCons h1 (h2.app h')

theorem expand_nil {α : List FSym} (h : [] ∈ expand α) : Gen α [] := by
  induction α with
  | nil => exact .nil
  | cons f α ih =>
    obtain ⟨a, ha, β', hβ', e⟩ := mem_expand_cons.1 h
    obtain ⟨rfl, rfl⟩ := List.append_eq_nil_iff.1 e.symm
    cases f with
    | tok k =>
      simp only [alts] at ha
      split at ha <;> simp at ha
    | non x => simp [alts] at ha
    | plus x => simp [alts] at ha
    | opt x => exact .optNone (ih hβ')
    | star x => exact .starNil (ih hβ')

/-- a list of symbols made of symbols of the file: skip the optional ones that are left out -/
theorem expand_cons {X : Sym} {β : List Sym} {w : List Token} :
    ∀ {α : List FSym}, X :: β ∈ expand α → (∀ f ∈ α, Ok f) →
      (∀ f α', [X] ∈ alts f → β ∈ expand α' → Ok f → (∀ f ∈ α', Ok f) → Gen (f :: α') w) → Gen α w
  | [], h, _, _ => by simp [expand] at h
  | f :: α, h, hok, hk => by
    obtain ⟨a, ha, β', hβ', e⟩ := mem_expand_cons.1 h
    have hok' : ∀ f ∈ α, Ok f := fun f hf => hok f (.tail _ hf)
    cases a with
    | nil =>
      rw [List.nil_append] at e
      rw [← e] at hβ'
      have ih := expand_cons hβ' hok' hk
      cases f with
      | tok k =>
        simp only [alts] at ha
        split at ha <;> simp at ha
      | non x => simp [alts] at ha
      | plus x => simp [alts] at ha
      | opt x => exact .optNone ih
      | star x => exact .starNil ih
    | cons Y a =>
      have hone : ∀ {f : FSym} {Y : Sym} {a : List Sym}, Y :: a ∈ alts f → a = [] := by
        intro f Y a h
        cases f with
        | tok k =>
          simp only [alts] at h
          split at h
          · simp at h; exact h.2
          · simp at h
        | non x => simp [alts] at h; exact h.2
        | plus x => simp [alts] at h; exact h.2
        | opt x => simp [alts] at h; exact h.2
        | star x => simp [alts] at h; exact h.2
      obtain rfl := hone ha
      simp only [List.singleton_append, List.cons.injEq] at e
      obtain ⟨rfl, rfl⟩ := e
      exact hk f α ha hβ' (hok f (.head _)) hok'

theorem der_gen {β : List Sym} {c : List Nat} (h : Der (desugaredFor start) β c) :
    ∀ (α : List FSym) (w : List Token), β ∈ expand α → (∀ f ∈ α, Ok f) → w.map code = c.map some → Gen α w := by
  induction h with
  | nil =>
    intro α w hβ hok hw
    simp only [List.map_nil, List.map_eq_nil_iff] at hw
    subst hw
    exact expand_nil hβ
  | @t a β c _ ih =>
    intro α w hβ hok hw
    obtain ⟨t, w', rfl, ht, hw'⟩ := List.map_eq_cons_iff.1 hw
    refine expand_cons hβ hok fun f α' hf hβ' hokf hok' => ?_
    have hg := ih α' w' hβ' hok' hw'
    cases f with
    | tok k =>
      simp only [alts] at hf
      split at hf
      · rename_i b hb
        simp only [List.mem_cons, List.cons.injEq, Sym.t.injEq, and_true, List.not_mem_nil, or_false] at hf
        subst hf
        exact .tok (by rw [code_inj ht hb, hokf.2]) hg
      · simp at hf
    | non x => simp [alts] at hf
    | plus x => simp [alts] at hf
    | opt x => simp [alts] at hf
    | star x => simp [alts] at hf
  | @n r β c1 c2 hr hd _ ih1 ih2 =>
    intro α w hβ hok hw
    rw [List.map_append] at hw
    obtain ⟨w1, w2, rfl, hw1, hw2⟩ := List.map_eq_append_iff.1 hw
    refine expand_cons hβ hok fun f α' hf hβ' hokf hok' => ?_
    have hg := ih2 α' w2 hβ' hok' hw2
    have isNon : ∀ {x : GName}, r.lhs = num x → Gen [.non x] w1 := by
      intro x e
      obtain ⟨q, hq, rfl, hrq⟩ := rule_num hr e
      have := Gen.non hq (ih1 q.rhs w1 hrq (grammarFile_ok hq) hw1) .nil
      simpa using this
    have isPlus : ∀ {x : GName}, x ∈ repeated → r.lhs = numPlus x → Gen [.plus x] w1 := by
      intro x hx e
      rcases rule_plus hr e with e' | e'
      · have := ih1 [.non x] w1 (by rw [e']; simp [expand, alts]) (by intro f hf; rw [List.mem_singleton.1 hf]; trivial) hw1
        have := Gen.plus this (.starNil .nil)
        simpa using this
      · refine plus_snoc (ih1 [.plus x, .non x] w1 (by rw [e']; simp [expand, alts]) ?_ hw1)
        intro f hf
        simp only [List.mem_cons, List.not_mem_nil, or_false] at hf
        rcases hf with rfl | rfl
        · exact hx
        · trivial
    cases f with
    | tok k =>
      simp only [alts] at hf
      split at hf <;> simp at hf
    | non x =>
      simp only [alts, List.mem_singleton, List.cons.injEq, Sym.n.injEq, and_true] at hf
      exact (isNon hf).app hg
    | opt x =>
      simp only [alts, List.mem_cons, List.not_mem_nil, or_false, List.cons.injEq, Sym.n.injEq, and_true, reduceCtorEq,
        false_or] at hf
      exact .optSome (isNon hf) hg
    | star x =>
      simp only [alts, List.mem_cons, List.not_mem_nil, or_false, List.cons.injEq, Sym.n.injEq, and_true, reduceCtorEq,
        false_or] at hf
      exact plus_star (isPlus hokf hf) hg
    | plus x =>
      simp only [alts, List.mem_singleton, List.cons.injEq, Sym.n.injEq, and_true] at hf
      exact plus_cons (isPlus hokf hf) hg

/-- the grammar with numbers generates the same -/
theorem gen_iff_der (x : GName) (w : List Token) :
    Gen [.non x] w ↔ ∃ c : List Nat, w.map code = c.map some ∧ Der (desugaredFor start) [.n (num x)] c := by
  have hok : ∀ f ∈ [FSym.non x], Ok f := by
    intro f hf
    rw [List.mem_singleton.1 hf]
    trivial
  have he : expand [FSym.non x] = [[.n (num x)]] := by simp [expand, alts]
  constructor
  · intro h
    obtain ⟨β, hβ, c, hc, hd⟩ := gen_der h hok
    rw [he, List.mem_singleton] at hβ
    subst hβ
    exact ⟨c, hc, hd⟩
  · rintro ⟨c, hc, hd⟩
    exact der_gen hd _ w (by rw [he]; simp) hok hc

end Verif.LR
