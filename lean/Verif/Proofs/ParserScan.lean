import Verif.Spec.Scan
import Verif.Spec.Interface
import Verif.Proofs.ParserComplete
/-
Scans of derivable token sequences (Verif/Spec/Scan.lean).
-/
namespace Verif

set_option linter.unusedSimpArgs false

@[simp] theorem bare_nil : bare [] = [] := rfl
@[simp] theorem bare_cons (t : STok) (w : List STok) : bare (t :: w) = t.tok :: bare w := rfl
@[simp] theorem bare_append (w w' : List STok) : bare (w ++ w') = bare w ++ bare w' := by
  simp [bare]

theorem Derives.nested {n : NT} {w : List STok} {v : Val n} (d : Derives n w v) :
    ∀ st r, nested st (bare w ++ r) = nested st r := by
  induction d <;> intro st r <;> simp_all [Verif.nested]

/-! ### contract names -/

/-- nonterminals below the contract definition, which cannot contain one -/
def belowContract : NT → Bool
  | .program | .contractDef => false
  | .star n | .plus n | .opt n => belowContract n
  | _ => true

theorem addressFieldList_head {w : List STok} {v : Val (.opt .addressFieldList)}
    (d : Derives (.opt .addressFieldList) w v) :
    bare w = [] ∨ ∃ r, bare w = .field :: r := by
  cases d with
  | optNone => left; rfl
  | optSome d =>
    right
    cases d with
    | addrFieldList h d1 d2 =>
      cases d1 with
      | addrField h1 _ _ => subst h; subst h1; exact ⟨_, rfl⟩

theorem contractNames_address {w : List STok} {v : Val (.opt .addressFieldList)}
    (d : Derives (.opt .addressFieldList) w v) (ih : ∀ r, contractNames (bare w ++ r) = contractNames r)
    (r : List Token) : contractNames (.contract :: (bare w ++ .end_ :: r)) = contractNames r := by
  have h1 := ih (.end_ :: r)
  rcases addressFieldList_head d with h | ⟨r', h⟩
  · rw [h]; simp [contractNames]
  · rw [h] at h1 ⊢
    simp only [List.cons_append, contractNames] at h1 ⊢
    exact h1

theorem Derives.noContract {n : NT} {w : List STok} {v : Val n} (d : Derives n w v) :
    belowContract n = true → ∀ r, contractNames (bare w ++ r) = contractNames r := by
  induction d with
  | addrContract h d1 d2 ih1 ih2 =>
    intro _ r
    subst h
    simp only [bare_append, bare_cons, bare_nil, List.append_assoc, List.cons_append, List.nil_append]
    rw [ih1 rfl]
    simp only [contractNames]
    exact contractNames_address d2 (ih2 rfl) r
  | program | contractDef => intro h; simp [belowContract] at h
  | _ => intro hb r; simp_all [contractNames, belowContract]

/-- the single token of a type name -/
theorem typeName_token {w : List STok} {v : Val .typeName} (d : Derives .typeName w v) :
    ∃ t, bare w = [t] ∧ t.text = v.node.display ∧ t ≠ .field ∧ t ≠ .end_ := by
  cases d with
  | typeNameBytes d => cases d with
    | byteString h => subst h; exact ⟨_, rfl, rfl, by simp, by simp⟩
  | typeNameEvent h => subst h; exact ⟨_, rfl, rfl, by simp, by simp⟩
  | typeNameCustom d => cases d with
    | customId h => subst h; exact ⟨_, rfl, rfl, by simp, by simp⟩

theorem contractNames_cons {t : Token} (h1 : t ≠ .field) (h2 : t ≠ .end_) (r : List Token) :
    contractNames (.contract :: t :: r) = t :: contractNames r := by
  cases t <;> simp_all [contractNames]

theorem contractDef_names {w : List STok} {v : Val .contractDef} (d : Derives .contractDef w v) :
    ∃ t, t.text = v.node.contractName.node.display ∧ contractNames (bare w) = [t] := by
  cases d with
  | contractDef h d1 d2 d3 d4 d5 =>
    obtain ⟨t, ht, htx, hf, he⟩ := typeName_token d1
    refine ⟨t, htx, ?_⟩
    subst h
    simp only [bare_append, bare_cons, ht, List.cons_append, List.nil_append]
    rw [contractNames_cons hf he, d2.noContract rfl, d3.noContract rfl, d4.noContract rfl]
    have := d5.noContract rfl []
    simp only [List.append_nil] at this
    rw [this]
    rfl

/-! ### component names -/

def belowComponent : NT → Bool
  | .program | .contractDef | .compDef | .transDef | .procDef => false
  | .star n | .plus n | .opt n => belowComponent n
  | _ => true

theorem Derives.noComponent {n : NT} {w : List STok} {v : Val n} (d : Derives n w v) :
    belowComponent n = true → ∀ r, componentNames (bare w ++ r) = componentNames r := by
  induction d <;> intro hb r <;> simp_all [componentNames, belowComponent]

theorem componentId_token {w : List STok} {v : Val .componentId} (d : Derives .componentId w v) :
    ∃ t, bare w = [t] ∧ t.text = componentName v.node := by
  cases d with
  | componentType d =>
    obtain ⟨t, h1, h2, _⟩ := typeName_token d
    exact ⟨t, h1, h2⟩
  | componentRegular d => cases d with
    | regularId h => subst h; exact ⟨_, rfl, rfl⟩

/-- kind and name of a component of the tree -/
def componentEntry (c : W NodeComponentDefinition) : CompKind × Str :=
  match c.node with
  | .transitionComponent t => (.transition, componentName t.node.name.node)
  | .procedureComponent t => (.procedure, componentName t.node.name.node)

theorem compDef_names {w : List STok} {v : Val .compDef} (d : Derives .compDef w v) (r : List Token) :
    ∃ t, (t.1, t.2.text) = componentEntry v ∧
      componentNames (bare w ++ r) = t :: componentNames r := by
  cases d with
  | compTransition d =>
    cases d with
    | transDef h d1 d2 d3 =>
      obtain ⟨t, ht, htx⟩ := componentId_token d1
      refine ⟨(.transition, t), by rw [htx]; rfl, ?_⟩
      subst h
      simp only [bare_append, bare_cons, ht, List.cons_append, List.nil_append, List.append_assoc,
        componentNames]
      rw [d2.noComponent rfl, d3.noComponent rfl]
  | compProcedure d =>
    cases d with
    | procDef h d1 d2 d3 =>
      obtain ⟨t, ht, htx⟩ := componentId_token d1
      refine ⟨(.procedure, t), by rw [htx]; rfl, ?_⟩
      subst h
      simp only [bare_append, bare_cons, ht, List.cons_append, List.nil_append, List.append_assoc,
        componentNames]
      rw [d2.noComponent rfl, d3.noComponent rfl]

/-- induction over a repetition -/
theorem Derives.star_ind {n : NT} {P : List STok → List (Val n) → Prop} (h0 : P [] [])
    (h1 : ∀ w1 v w2 vs, Derives n w1 v → Derives (.star n) w2 vs → P w2 vs → P (w1 ++ w2) (v :: vs)) :
    ∀ {w : List STok} {vs : Val (.star n)}, Derives (.star n) w vs → P w vs
  | _, _, .starNil => h0
  | _, _, .starCons d1 d2 => h1 _ _ _ _ d1 d2 (Derives.star_ind h0 h1 d2)

theorem compDefs_names {w : List STok} {vs : Val (.star .compDef)}
    (d : Derives (.star .compDef) w vs) : ∀ (r : List Token),
    (componentNames (bare w ++ r)).map (fun t => (t.1, t.2.text)) =
      vs.map componentEntry ++ (componentNames r).map (fun t => (t.1, t.2.text)) := by
  refine Derives.star_ind (P := fun w vs => ∀ r : List Token,
    (componentNames (bare w ++ r)).map (fun t => (t.1, t.2.text)) =
      List.map componentEntry vs ++ (componentNames r).map (fun t => (t.1, t.2.text))) ?_ ?_ d
  · intro r; rfl
  · intro w1 v w2 vs d1 _ ih r
    obtain ⟨t, ht, he⟩ := compDef_names d1 (bare w2 ++ r)
    simp only [bare_append, List.append_assoc, he, List.map_cons, ih r, ht, List.cons_append]

theorem Derives.noCompKeyword {n : NT} {w : List STok} {v : Val n} (d : Derives n w v) :
    belowComponent n = true →
      (bare w).count .transition = 0 ∧ (bare w).count .procedure = 0 := by
  induction d <;> intro hb <;> simp_all [belowComponent, List.count_cons, List.count_append]

theorem compDef_counts {w : List STok} {v : Val .compDef} (d : Derives .compDef w v) :
    (bare w).count .transition = (if (componentEntry v).1 = .transition then 1 else 0) ∧
    (bare w).count .procedure = (if (componentEntry v).1 = .procedure then 1 else 0) := by
  cases d with
  | compTransition d =>
    cases d with
    | transDef h d1 d2 d3 =>
      have c1 := d1.noCompKeyword rfl
      have c2 := d2.noCompKeyword rfl
      have c3 := d3.noCompKeyword rfl
      subst h
      simp (decide := true) [List.count_cons, List.count_append, c1, c2, c3, componentEntry, mkW]
  | compProcedure d =>
    cases d with
    | procDef h d1 d2 d3 =>
      have c1 := d1.noCompKeyword rfl
      have c2 := d2.noCompKeyword rfl
      have c3 := d3.noCompKeyword rfl
      subst h
      simp (decide := true) [List.count_cons, List.count_append, c1, c2, c3, componentEntry, mkW]

theorem compDefs_counts {w : List STok} {vs : Val (.star .compDef)}
    (d : Derives (.star .compDef) w vs) :
    (bare w).count .transition = (vs.map componentEntry).countP (·.1 = .transition) ∧
    (bare w).count .procedure = (vs.map componentEntry).countP (·.1 = .procedure) := by
  refine Derives.star_ind (P := fun w vs =>
    (bare w).count .transition = (List.map componentEntry vs).countP (·.1 = .transition) ∧
    (bare w).count .procedure = (List.map componentEntry vs).countP (·.1 = .procedure)) ?_ ?_ d
  · exact ⟨rfl, rfl⟩
  · intro w1 v w2 vs d1 _ ih
    have c1 := compDef_counts d1
    simp only [bare_append, List.count_append, List.map_cons, List.countP_cons, c1, ih,
      decide_eq_true_eq]
    omega

theorem program_counts {w : List STok} {p : Val .program} (d : Derives .program w p) :
    (bare w).count .transition =
      (p.contractDefinition.node.components.map componentEntry).countP (·.1 = .transition) ∧
    (bare w).count .procedure =
      (p.contractDefinition.node.components.map componentEntry).countP (·.1 = .procedure) := by
  cases d with
  | program h d1 d2 d3 d4 =>
    cases d4 with
    | contractDef h' e1 e2 e3 e4 e5 =>
      have c1 := d1.noCompKeyword rfl
      have c2 := d2.noCompKeyword rfl
      have c3 := d3.noCompKeyword rfl
      have b1 := e1.noCompKeyword rfl
      have b2 := e2.noCompKeyword rfl
      have b3 := e3.noCompKeyword rfl
      have b4 := e4.noCompKeyword rfl
      have b5 := compDefs_counts e5
      subst h; subst h'
      simp (decide := true) [List.count_cons, List.count_append, c1, c2, c3, b1, b2, b3, b4, b5, mkW]

/-! ### field names -/

/-- the last token of `w`, or `p` -/
def lastOr (p : Option Token) : List Token → Option Token
  | [] => p
  | t :: ts => lastOr (some t) ts

@[simp] theorem lastOr_nil (p : Option Token) : lastOr p [] = p := rfl
@[simp] theorem lastOr_cons (p : Option Token) (t : Token) (ts : List Token) :
    lastOr p (t :: ts) = lastOr (some t) ts := rfl
@[simp] theorem lastOr_append (p : Option Token) : ∀ (a b : List Token),
    lastOr p (a ++ b) = lastOr (lastOr p a) b
  | [], _ => rfl
  | t :: a, b => lastOr_append (some t) a b

/-- may a contract-level `field` follow this token -/
def fieldOk : Option Token → Bool
  | some .contract | some .comma => false
  | _ => true

theorem fieldOk_some (t : Token) : fieldOk (some t) = !(t == .contract || t == .comma) := by
  cases t <;> rfl

/-- the nonterminals used in the grammar repeat only nonempty things -/
def sane : NT → Bool
  | .star n | .plus n | .opt n => !nullable n && sane n
  | _ => true

theorem Derives.last {n : NT} {w : List STok} {v : Val n} (d : Derives n w v) :
    sane n = true → (∀ p, fieldOk p = true → fieldOk (lastOr p (bare w)) = true) ∧
      (nullable n = false → ∀ p, fieldOk (lastOr p (bare w)) = true) := by
  induction d with
  | contractDef h d1 d2 d3 d4 d5 ih1 ih2 ih3 ih4 ih5 =>
    intro _
    subst h
    simp only [bare_cons, bare_append, lastOr_cons, lastOr_append]
    exact ⟨fun _ _ => (ih5 rfl).1 _ ((ih4 rfl).1 _ ((ih3 rfl).1 _ ((ih2 rfl).2 rfl _))),
      fun _ _ => (ih5 rfl).1 _ ((ih4 rfl).1 _ ((ih3 rfl).1 _ ((ih2 rfl).2 rfl _)))⟩
  | _ => intro hs; simp_all [fieldOk_some, nullable, sane]

/-- an address field is only scanned after `contract` or `,` -/
def anywhere : NT → Bool
  | .addressField | .addressFieldList => false
  | .opt n => anywhere n
  | _ => true

def belowField : NT → Bool
  | .program | .contractDef | .contractField => false
  | .star n | .plus n => belowField n && anywhere n
  | .opt n => belowField n
  | _ => true

theorem fieldNames_other {t : Token} (h : t ≠ .field) (p : Option Token) (ts : List Token) :
    fieldNames p (t :: ts) = fieldNames (some t) ts := by
  cases t <;> simp_all [fieldNames]

theorem fieldNames_field {p : Option Token} (h : fieldOk p = false) (ts : List Token) :
    fieldNames p (.field :: ts) = fieldNames (some .field) ts := by
  unfold fieldOk at h
  split at h
  · simp [fieldNames]
  · simp [fieldNames]
  · simp at h

theorem Derives.noField {n : NT} {w : List STok} {v : Val n} (d : Derives n w v) :
    belowField n = true → ∀ p r, (anywhere n = true ∨ fieldOk p = false) →
      fieldNames p (bare w ++ r) = fieldNames (lastOr p (bare w)) r := by
  induction d <;> intro hb p r hp <;>
    simp_all [fieldNames_other, fieldNames_field, belowField, anywhere, fieldOk_some]

theorem regularId_token {w : List STok} {v : Val .regularId} (d : Derives .regularId w v) :
    bare w = [.identifier v.node] := by
  cases d with
  | regularId h => subst h; rfl

theorem fieldNames_name {p : Option Token} (h : fieldOk p = true) (t : Token) (ts : List Token) :
    fieldNames p (.field :: t :: ts) = t :: fieldNames (some t) ts := by
  unfold fieldOk at h
  split at h
  · simp at h
  · simp at h
  · rename_i h1 h2
    rw [fieldNames]
    · intro e; exact h1 e
    · intro e; exact h2 e

/-- the names of contract-level fields -/
theorem contractField_names {w : List STok} {v : Val .contractField}
    (d : Derives .contractField w v) (p : Option Token) (hp : fieldOk p = true) (r : List Token) :
    fieldNames p (bare w ++ r) =
      .identifier v.node.typedIdentifier.node.identifierName.node ::
        fieldNames (lastOr p (bare w)) r := by
  cases d with
  | contractField h d1 d2 =>
    cases d1 with
    | typedId h1 d3 d4 =>
      have hx := regularId_token d3
      subst h; subst h1
      simp only [bare_cons, bare_append, hx, List.cons_append, List.nil_append, List.append_assoc,
        lastOr_cons, lastOr_append]
      rw [fieldNames_name hp, d4.noField rfl _ _ (.inl rfl), fieldNames_other (by simp),
        d2.noField rfl _ _ (.inl rfl)]
      rfl

theorem contractFields_names {w : List STok} {vs : Val (.star .contractField)}
    (d : Derives (.star .contractField) w vs) : ∀ (p : Option Token) (r : List Token),
    fieldOk p = true → fieldNames p (bare w ++ r) =
      vs.map (fun v => .identifier v.node.typedIdentifier.node.identifierName.node) ++
        fieldNames (lastOr p (bare w)) r := by
  refine Derives.star_ind (P := fun w vs => ∀ (p : Option Token) (r : List Token),
    fieldOk p = true → fieldNames p (bare w ++ r) =
      List.map (fun v => .identifier v.node.typedIdentifier.node.identifierName.node) vs ++
        fieldNames (lastOr p (bare w)) r) ?_ ?_ d
  · intro p r _; rfl
  · intro w1 v w2 vs d1 _ ih p r hp
    simp only [bare_append, List.append_assoc, contractField_names d1 p hp, List.map_cons,
      List.cons_append, lastOr_append]
    rw [ih _ _ ((d1.last rfl).1 _ hp)]

theorem contractDef_fields {w : List STok} {v : Val .contractDef} (d : Derives .contractDef w v)
    (p : Option Token) : fieldNames p (bare w) =
      v.node.fields.map (fun v => .identifier v.node.typedIdentifier.node.identifierName.node) := by
  cases d with
  | contractDef h d1 d2 d3 d4 d5 =>
    subst h
    simp only [bare_cons, bare_append]
    rw [fieldNames_other (by simp), d1.noField rfl _ _ (.inl rfl), d2.noField rfl _ _ (.inl rfl),
      d3.noField rfl _ _ (.inl rfl), contractFields_names d4]
    · have h5 : ∀ q, fieldNames q (bare _) = [] := fun q => by
        have := d5.noField rfl q [] (.inl rfl)
        simpa [fieldNames] using this
      rw [h5]
      simp [mkW]
    · exact (d3.last rfl).1 _ ((d2.last rfl).2 rfl _)

/-! ### whole programs -/

theorem program_scan {w : List STok} {p : Val .program} (d : Derives .program w p) :
    (∃ s e s' e' rest, w = ⟨s, .scillaVersion, e⟩ :: ⟨s', .number p.version.node, e'⟩ :: rest) ∧
    nested [] (bare w) = true ∧
    (∃ t, t.text = p.contractDefinition.node.contractName.node.display ∧
      contractNames (bare w) = [t]) ∧
    (componentNames (bare w)).map (fun t => (t.1, t.2.text)) =
      p.contractDefinition.node.components.map componentEntry ∧
    fieldNames none (bare w) = p.contractDefinition.node.fields.map
      (fun v => .identifier v.node.typedIdentifier.node.identifierName.node) := by
  have hn := d.nested [] []
  cases d with
  | program h d1 d2 d3 d4 =>
    cases d1 with
    | signedInt h1 =>
      refine ⟨?_, by simpa [nested] using hn, ?_, ?_, ?_⟩
      · subst h1; subst h; exact ⟨_, _, _, _, _, rfl⟩
      · obtain ⟨t, ht, hc⟩ := contractDef_names d4
        refine ⟨t, ht, ?_⟩
        subst h1; subst h
        simp only [bare_cons, bare_append, bare_nil, List.cons_append, List.nil_append, contractNames]
        rw [d2.noContract rfl, d3.noContract rfl, hc]
      · subst h1; subst h
        simp only [bare_cons, bare_append, bare_nil, List.cons_append, List.nil_append, componentNames]
        rw [d2.noComponent rfl, d3.noComponent rfl]
        cases d4 with
        | contractDef h e1 e2 e3 e4 e5 =>
          subst h
          simp only [bare_cons, bare_append, componentNames]
          rw [e1.noComponent rfl, e2.noComponent rfl, e3.noComponent rfl, e4.noComponent rfl]
          have := compDefs_names e5 []
          simpa [componentNames, mkW] using this
      · subst h1; subst h
        simp only [bare_cons, bare_append, bare_nil, List.cons_append, List.nil_append]
        rw [fieldNames_other (by simp), fieldNames_other (by simp), d2.noField rfl _ _ (.inl rfl),
          d3.noField rfl _ _ (.inl rfl), contractDef_fields d4]

end Verif
