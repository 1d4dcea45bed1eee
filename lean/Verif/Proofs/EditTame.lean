import Verif.Proofs.ParserScan
/-
Where the keywords `field` and `contract` and the sign `=` stand in the phrases of the grammar.
-/
namespace Verif

set_option linter.unusedSimpArgs false

/-- every `field` comes directly after `contract` or `,` -/
def FieldTame (w : List Token) : Prop :=
  ∀ a b, w = a ++ .field :: b → ∃ a' t, a = a' ++ [t] ∧ (t = .contract ∨ t = .comma)

/-- every `contract` comes directly before `field` or `end` -/
def ContractTame (w : List Token) : Prop :=
  ∀ a b, w = a ++ .contract :: b → ∃ t b', b = t :: b' ∧ (t = .field ∨ t = .end_)

theorem FieldTame.nil : FieldTame [] := fun a b h => by simp at h

theorem FieldTame.append {u v : List Token} (hu : FieldTame u) (hv : FieldTame v) : FieldTame (u ++ v) := by
  intro a b h
  rw [List.append_eq_append_iff] at h
  rcases h with ⟨c, rfl, h⟩ | ⟨c, h, h'⟩
  · obtain ⟨a', t, rfl, ht⟩ := hv _ _ h
    exact ⟨u ++ a', t, by simp, ht⟩
  · cases c with
    | nil =>
      obtain ⟨a', t, e, -⟩ := hv [] b (by simpa using h'.symm)
      simp at e
    | cons x c =>
      simp only [List.cons_append, List.cons.injEq] at h'
      obtain ⟨rfl, -⟩ := h'
      exact hu _ _ h

theorem FieldTame.cons {t : Token} {w : List Token} (ht : t ≠ .field) (hw : FieldTame w) : FieldTame (t :: w) := by
  intro a b h
  cases a with
  | nil => simp only [List.nil_append, List.cons.injEq] at h; exact absurd h.1 ht
  | cons x a =>
    simp only [List.cons_append, List.cons.injEq] at h
    obtain ⟨a', u, rfl, hu⟩ := hw _ _ h.2
    exact ⟨x :: a', u, rfl, hu⟩

theorem FieldTame.after {t : Token} {w : List Token} (ht : t = .contract ∨ t = .comma) (hw : FieldTame w) :
    FieldTame (t :: .field :: w) := by
  intro a b h
  cases a with
  | nil => rcases ht with rfl | rfl <;> simp at h
  | cons x a =>
    simp only [List.cons_append, List.cons.injEq] at h
    obtain ⟨rfl, h⟩ := h
    cases a with
    | nil => exact ⟨[], t, rfl, ht⟩
    | cons y a =>
      simp only [List.cons_append, List.cons.injEq] at h
      obtain ⟨a', u, rfl, hu⟩ := hw _ _ h.2
      exact ⟨t :: y :: a', u, rfl, hu⟩

/-- phrases with other `field`s -/
def hasField : NT → Bool
  | .addressField | .addressFieldList | .contractField | .contractDef | .program => true
  | .star n | .plus n | .opt n => hasField n
  | _ => false

/-- fields of address types start with `field` -/
def AddrTame : NT → List Token → Prop
  | .addressField, w => ∃ u, w = .field :: u ∧ FieldTame u
  | .addressFieldList, w => ∃ u, w = .field :: u ∧ FieldTame u
  | .opt .addressFieldList, w => w = [] ∨ ∃ u, w = .field :: u ∧ FieldTame u
  | _, _ => True

macro "tame" : tactic => `(tactic| (
  repeat (first
    | assumption
    | exact FieldTame.nil
    | apply FieldTame.append
    | apply FieldTame.cons (by simp))))

theorem Derives.fieldTame {n : NT} {w : List STok} {v : Val n} (d : Derives n w v) :
    (hasField n = false → FieldTame (bare w)) ∧ AddrTame n (bare w) := by
  induction d
  case starNil n => exact ⟨fun _ => .nil, trivial⟩
  case starCons ih ih' => exact ⟨fun h => by rw [bare_append]; exact (ih.1 h).append (ih'.1 h), trivial⟩
  case plusIntro ih ih' => exact ⟨fun h => by rw [bare_append]; exact (ih.1 h).append (ih'.1 h), trivial⟩
  case optNone n => exact ⟨fun _ => .nil, by cases n <;> first | trivial | exact .inl rfl⟩
  case optSome n _ _ _ ih => exact ⟨fun h => ih.1 h, by cases n <;> first | trivial | exact .inr ih.2⟩
  case addrField hw _ _ ih ih' =>
    refine ⟨fun h => by simp [hasField] at h, _, by rw [hw, bare_cons], ?_⟩
    rw [bare_append, bare_cons]
    exact (ih.1 rfl).append (.cons (by simp) (ih'.1 rfl))
  case addrFieldList hw _ _ ih ih' =>
    obtain ⟨u, hu, hu'⟩ := ih.2
    exact ⟨fun h => by simp [hasField] at h, _, by rw [hw, bare_append, hu]; rfl, hu'.append (ih'.1 rfl)⟩
  case nextAddrField hw _ ih =>
    obtain ⟨u, hu, hu'⟩ := ih.2
    refine ⟨fun _ => ?_, trivial⟩
    rw [hw, bare_cons, hu]
    exact .after (.inr rfl) hu'
  case addrContract hw _ _ ih ih' =>
    refine ⟨fun _ => ?_, trivial⟩
    rw [hw, bare_append, bare_cons, bare_cons, bare_append]
    refine (ih.1 rfl).append (.cons (by simp) ?_)
    rcases ih'.2 with h | ⟨u, h, hu⟩
    · rw [h]; exact .cons (by simp) (.cons (by simp) .nil)
    · rw [h]; exact .after (.inl rfl) (hu.append (.cons (by simp) .nil))
  case program => exact ⟨fun h => by simp [hasField] at h, trivial⟩
  case contractDef => exact ⟨fun h => by simp [hasField] at h, trivial⟩
  case contractField => exact ⟨fun h => by simp [hasField] at h, trivial⟩
  all_goals
    refine ⟨fun hs => ?_, by first | trivial | simp [AddrTame]⟩
    clear hs
    simp_all [hasField, AddrTame]
    try tame

theorem ContractTame.nil : ContractTame [] := fun a b h => by simp at h

theorem ContractTame.append {u v : List Token} (hu : ContractTame u) (hv : ContractTame v) : ContractTame (u ++ v) := by
  intro a b h
  rw [List.append_eq_append_iff] at h
  rcases h with ⟨c, rfl, h⟩ | ⟨c, h, h'⟩
  · exact hv _ _ h
  · cases c with
    | nil => exact hv [] b (by simpa using h'.symm)
    | cons x c =>
      simp only [List.cons_append, List.cons.injEq] at h'
      obtain ⟨rfl, rfl⟩ := h'
      obtain ⟨t, b', rfl, ht⟩ := hu _ _ h
      exact ⟨t, _, rfl, ht⟩

theorem ContractTame.cons {t : Token} {w : List Token} (ht : t ≠ .contract) (hw : ContractTame w) : ContractTame (t :: w) := by
  intro a b h
  cases a with
  | nil => simp only [List.nil_append, List.cons.injEq] at h; exact absurd h.1 ht
  | cons x a =>
    simp only [List.cons_append, List.cons.injEq] at h
    exact hw _ _ h.2

theorem ContractTame.before {t : Token} {w : List Token} (ht : t = .field ∨ t = .end_) (hw : ContractTame w) :
    ContractTame (.contract :: t :: w) := by
  have h0 : ContractTame (t :: w) := hw.cons (by rcases ht with rfl | rfl <;> simp)
  intro a b h
  cases a with
  | nil =>
    simp only [List.nil_append, List.cons.injEq, true_and] at h
    exact ⟨t, w, h.symm, ht⟩
  | cons x a =>
    simp only [List.cons_append, List.cons.injEq] at h
    exact h0 _ _ h.2

theorem ContractTame.tail {t : Token} {w : List Token} (h : ContractTame (t :: w)) : ContractTame w :=
  fun a b e => h (t :: a) b (by rw [e]; rfl)

theorem Derives.contractTame {n : NT} {w : List STok} {v : Val n} (d : Derives n w v) :
    belowContract n = true → ContractTame (bare w) := by
  induction d
  case starNil n => exact fun _ => .nil
  case starCons ih ih' => exact fun h => by rw [bare_append]; exact (ih h).append (ih' h)
  case plusIntro ih ih' => exact fun h => by rw [bare_append]; exact (ih h).append (ih' h)
  case optNone n => exact fun _ => .nil
  case optSome ih => exact ih
  case addrContract hw _ d2 ih ih' =>
    intro _
    rw [hw, bare_append, bare_cons, bare_cons, bare_append]
    refine (ih rfl).append (.cons (by simp) ?_)
    rcases addressFieldList_head d2 with h | ⟨u, h⟩
    · rw [h]; exact .before (.inr rfl) .nil
    · have := ih' rfl
      rw [h] at this ⊢
      exact .before (.inl rfl) (this.tail.append (.cons (by simp) .nil))
  case program => exact fun h => by simp [belowContract] at h
  case contractDef => exact fun h => by simp [belowContract] at h
  all_goals
    intro hs
    clear hs
    simp_all [belowContract]
    try (
      repeat (first
        | assumption
        | exact ContractTame.nil
        | apply ContractTame.append
        | apply ContractTame.cons (by simp)))

/-- the phrases of the type language -/
def isTypeNT : NT → Bool
  | .typeName | .byteString | .customId | .regularId | .specialId | .hexNumber | .metaId | .varId | .remaining | .funSig
  | .scillaType | .typeArg | .mapKey | .mapValue | .mapValueAllowing | .mapValueArgs | .addressType | .addressField
  | .nextAddressField | .addressFieldList | .templateId | .typeAnn | .typedId => true
  | .star n | .plus n | .opt n => isTypeNT n
  | _ => false

theorem Derives.noEquals {n : NT} {w : List STok} {v : Val n} (d : Derives n w v) :
    isTypeNT n = true → Token.equals ∉ bare w := by
  induction d <;> intro hb <;> simp_all [isTypeNT]

end Verif
