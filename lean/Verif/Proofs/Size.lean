import Verif.Spec.Size
import Verif.Spec.Pile
import Verif.Spec.Scan
import Verif.Proofs.Blocks
/-
The size of what the reading of `Spec/Pile` takes from and leaves on the pile, by induction on the derivation.
-/
namespace Verif.Pile

variable {a b : Nat}

@[simp] theorem tokSize_append (u v : List Token) : tokSize a b (u ++ v) = tokSize a b u + tokSize a b v := by
  induction u with
  | nil => simp [tokSize]
  | cons t u ih => simp only [List.cons_append, tokSize, ih]; omega

@[simp] theorem tokSize_cons (t : Token) (v : List Token) : tokSize a b (t :: v) = (a + b * t.text.length) + tokSize a b v := rfl
@[simp] theorem tokSize_nil : tokSize a b [] = 0 := rfl

def optSize (a b : Nat) : Option Ty → Nat
  | none => 0
  | some t => t.size a b

def optsSize (a b : Nat) : List (Option Ty) → Nat
  | [] => 0
  | t :: ts => optSize a b t + optsSize a b ts

def Thing.size (a b : Nat) : Thing → Nat
  | .name x => a + b * x.length
  | .transition x => a + b * x.length
  | .type t => optSize a b t
  | .decl ⟨x, t⟩ => a + b * x.length + t.size a b

def pileSize (a b : Nat) : List Thing → Nat
  | [] => 0
  | x :: p => x.size a b + pileSize a b p

/-- The step makes at most `k` out of nothing. -/
def Bounded {α : Type} (a b : Nat) (wt : α → Nat) (k : Nat) (m : Step α) : Prop :=
  ∀ p, match m p with
    | .fine x p' => wt x + pileSize a b p' ≤ pileSize a b p + k
    | .error _ _ p' => pileSize a b p' ≤ pileSize a b p + k
    | .panic => True

variable {α β : Type}

theorem Bounded.mono {wt : α → Nat} {k k' : Nat} {m : Step α} (h : Bounded a b wt k m) (hk : k ≤ k') :
    Bounded a b wt k' m := by
  intro p
  have := h p
  cases e : m p with
  | fine x p' => simp only [e] at this ⊢; omega
  | error w x p' => simp only [e] at this ⊢; omega
  | panic => trivial

theorem Bounded.bind {wt : α → Nat} {wt' : β → Nat} {k1 k2 : Nat} {m : Step α} {f : α → Step β} (h : Bounded a b wt k1 m)
    (hf : ∀ x, Bounded a b wt' (wt x + k2) (f x)) : Bounded a b wt' (k1 + k2) (m >>= f) := by
  intro p
  have h1 := h p
  show match Step.bind m f p with
    | .fine x p' => wt' x + pileSize a b p' ≤ pileSize a b p + (k1 + k2)
    | .error _ _ p' => pileSize a b p' ≤ pileSize a b p + (k1 + k2)
    | .panic => True
  unfold Step.bind
  cases e : m p with
  | fine x p' =>
    simp only [e] at h1
    have h2 := hf x p'
    simp only
    cases e2 : f x p' with
    | fine y q => simp only [e2] at h2 ⊢; omega
    | error w y q => simp only [e2] at h2 ⊢; omega
    | panic => trivial
  | error w x p' => simp only [e] at h1 ⊢; omega
  | panic => trivial

theorem Bounded.pure {wt : α → Nat} {x : α} {k : Nat} (h : wt x ≤ k) : Bounded a b wt k (Pure.pure x : Step α) := by
  intro p
  show wt x + pileSize a b p ≤ pileSize a b p + k
  omega

abbrev zero : Unit → Nat := fun _ => 0

theorem Bounded.put {x : Thing} {k : Nat} (h : x.size a b ≤ k) : Bounded a b zero k (put x) := by
  intro p
  show 0 + (x.size a b + pileSize a b p) ≤ pileSize a b p + k
  omega

theorem Bounded.panic {wt : α → Nat} {k : Nat} : Bounded a b wt k (Pile.panic : Step α) := fun _ => trivial

def nameSize (a b : Nat) (n : Str × Bool) : Nat := a + b * n.1.length
def declSize (a b : Nat) : Field → Nat
  | ⟨x, t⟩ => a + b * x.length + t.size a b

theorem bounded_takeName : Bounded a b (nameSize a b) 0 takeName := by
  intro p
  rcases p with _ | ⟨x, p⟩
  · exact Nat.le_refl _
  · cases x <;> simp only [takeName, nameSize, pileSize, Thing.size] <;> omega

theorem bounded_takeType : Bounded a b (optSize a b) 0 takeType := by
  intro p
  rcases p with _ | ⟨x, p⟩
  · exact Nat.le_refl _
  · cases x <;> simp only [takeType, pileSize, Thing.size] <;> omega

theorem bounded_takeDecl : Bounded a b (declSize a b) 0 takeDecl := by
  intro p
  rcases p with _ | ⟨x, p⟩
  · exact Nat.le_refl _
  · cases x <;> simp only [takeDecl, pileSize, Thing.size] <;> first | omega | (rename_i f; cases f; simp only [declSize]; omega)

theorem Bounded.ignoring {m : Step Unit} {k : Nat} (h : Bounded a b zero k m) : Bounded a b zero k (ignoringErrors m) := by
  intro p
  have := h p
  unfold ignoringErrors
  cases e : m p with
  | fine x p' => simp only [e] at this ⊢; exact this
  | error w x p' => simp only [e] at this ⊢; show 0 + _ ≤ _; omega
  | panic => trivial

theorem optsSize_reverse (l : List (Option Ty)) : optsSize a b l.reverse = optsSize a b l := by
  have app : ∀ u v : List (Option Ty), optsSize a b (u ++ v) = optsSize a b u + optsSize a b v := by
    intro u v
    induction u with
    | nil => simp [optsSize]
    | cons t u ih => simp only [List.cons_append, optsSize, ih]; omega
  induction l with
  | nil => rfl
  | cons t l ih => rw [List.reverse_cons, app, ih]; simp only [optsSize]; omega

theorem builtin_size {name : Str} {t : Ty} (h : builtinTypes.lookup name = some t) : t.size a b = a := by
  have : t ∈ builtinTypes.map (·.2) := by
    generalize builtinTypes = l at h
    induction l with
    | nil => simp at h
    | cons p l ih =>
      obtain ⟨s, u⟩ := p
      simp only [List.lookup_cons] at h
      split at h
      · cases h; simp
      · simp [ih h]
  simp only [builtinTypes, List.map_cons, List.map_nil, List.mem_cons, List.not_mem_nil, or_false] at this
  rcases this with rfl | rfl | rfl | rfl | rfl | rfl | rfl | rfl | rfl | rfl | rfl | rfl | rfl <;> rfl

theorem userType_size (name : Str) : (userType name).size a b ≤ a + b * name.length := by
  unfold userType
  split
  · split
    · simp only [Ty.size]; omega
    · simp only [Ty.size]; omega
  · simp only [Ty.size]; omega

theorem namedType_size (name : Str) (ts : List (Option Ty)) :
    optSize a b (namedType name ts) ≤ a + b * name.length + optsSize a b ts := by
  have hr := optsSize_reverse (a := a) (b := b) ts
  unfold namedType
  generalize ts.reverse = rs at hr ⊢
  split
  · rename_i t h
    simp only [optSize, builtin_size h]; omega
  · split
    · split
      · simp only [optSize, optsSize, Ty.size] at hr ⊢; omega
      · simp only [optSize]; omega
    · split
      · split
        · simp only [optSize, optsSize, Ty.size] at hr ⊢; omega
        · simp only [optSize]; omega
      · split
        · split
          · simp only [optSize, optsSize, Ty.size] at hr ⊢; omega
          · simp only [optSize]; omega
        · split
          · split
            · simp only [optSize, optsSize, Ty.size] at hr ⊢; omega
            · simp only [optSize]; omega
          · have := userType_size (a := a) (b := b) name
            simp only [optSize]; omega

theorem applied_size (name : Str) (ts : List (Option Ty)) :
    optSize a b (applied name ts) ≤ a + b * name.length + optsSize a b ts := by
  unfold applied
  split
  · split
    · simp only [optSize, Ty.size]; omega
    · simp only [optSize, Ty.size]; omega
  · exact namedType_size _ _

theorem bounded_asType : Bounded a b zero 0 asType := by
  refine (Bounded.bind (k2 := 0) bounded_takeName fun n => ?_)
  refine Bounded.put ?_
  have := applied_size (a := a) (b := b) n.1 []
  simp only [Thing.size, nameSize, optsSize] at this ⊢
  omega

theorem bounded_asMap {k : Nat} (h : a + 3 * b ≤ k) : Bounded a b zero k asMap := by
  refine (Bounded.bind (k1 := 0) (k2 := k) bounded_takeType fun v => ?_).mono (by omega)
  refine (Bounded.bind (k1 := 0) (k2 := optSize a b v + k) bounded_takeType fun u => ?_).mono (by omega)
  refine Bounded.put ?_
  have := applied_size (a := a) (b := b) (str! "Map") [u, v]
  simp only [Thing.size, optsSize, List.length_cons, List.length_nil] at this ⊢
  omega

/-- one after the other, each with its share -/
def Each {α : Type} (R : α → Nat → Prop) : List α → Nat → Prop
  | [], _ => True
  | v :: vs, k => ∃ k1 k2, k1 + k2 ≤ k ∧ R v k1 ∧ Each R vs k2

def transSize (a b : Nat) (t : Transition) : Nat := a + b * t.name.length + fieldsSize a b t.params

/-- what is read from the value of a nonterminal is at most `k` -/
def Made (a b : Nat) : (n : NT) → Val n → Nat → Prop
  | .byteString, v, k => a + b * v.display.length ≤ k
  | .typeName, v, k => Bounded a b zero k (typeName v.node) ∧ a + b * v.node.display.length ≤ k
  | .metaId, v, k => Bounded a b zero k (qualified v.node)
  | .varId, v, k => ∀ x, v.node = .variableName x → a + b * x.node.length ≤ k
  | .remaining, v, k => Bounded a b zero k (type v.node)
  | .funSig, v, k => Bounded a b zero k (type v.node)
  | .scillaType, v, k => Bounded a b zero k (type v.node)
  | .typeArg, v, k => Bounded a b zero k (arg v.node)
  | .addressType, v, k => Bounded a b zero k (Pile.addressType v.node)
  | .addressFieldList, v, k => Bounded a b (fieldsSize a b) k (fields v)
  | .nextAddressField, v, k => Bounded a b zero k (field v.node)
  | .addressField, v, k => Bounded a b zero k (field v.node)
  | .mapKey, v, k => Bounded a b zero k (key v.node)
  | .mapValue, v, k => Bounded a b zero k (value v.node)
  | .mapValueArgs, v, k => Bounded a b zero k (mva v.node)
  | .mapValueAllowing, v, k => Bounded a b zero k (mv v.node)
  | .typedId, v, k => Bounded a b zero k (typed v.node)
  | .typeAnn, v, k => Bounded a b zero k (typeW v.node.typeName)
  | .paramPair, v, k => Bounded a b zero k (typed v.node.identifierWithType.node)
  | .nextParamPair, v, k => Bounded a b zero k (typed v.node.identifierWithType.node)
  | .compParams, v, k => Bounded a b (fieldsSize a b) k (declared (typedOf v.node.parameters)) ∧
      Bounded a b zero k (again (typedOf v.node.parameters))
  | .componentId, v, k => a + b * (componentName v.node).length ≤ k
  | .transDef, v, k => Bounded a b (transSize a b) k (transition v.node)
  | .compDef, v, k => ∀ t, v.node = .transitionComponent t → Bounded a b (transSize a b) k (transition t.node)
  | .contractField, v, k => Bounded a b zero k (typed v.node.typedIdentifier.node)
  | .contractDef, v, k => ∀ p : NodeProgram, p.contractDefinition = v → Bounded a b (Contract.size a b) (2 * k) (contract p)
  | .program, v, k => Bounded a b (Contract.size a b) (2 * k) (contract v)
  | .regularId, v, k => a + b * v.node.length ≤ k
  | .specialId, v, k => a + b * v.node.length ≤ k
  | .customId, v, k => a + b * v.node.length ≤ k
  | .star n, vs, k => Each (Made a b n) vs k
  | .plus n, vs, k => Each (Made a b n) vs k
  | .opt n, v, k => Each (Made a b n) v.toList k
  | _, _, _ => True

theorem Bounded.seq {β : Type} {wt' : β → Nat} {k1 k2 : Nat} {m : Step Unit} {f : Unit → Step β} (h : Bounded a b zero k1 m)
    (hf : Bounded a b wt' k2 (f ())) : Bounded a b wt' (k1 + k2) (m >>= f) :=
  Bounded.bind h fun x => by cases x; exact hf.mono (by simp [zero])

theorem Bounded.args {vs : List (W NodeTypeArgument)} {k : Nat}
    (h : Each (fun v k => Bounded a b zero k (arg v.node)) vs k) : Bounded a b (optsSize a b) k (args vs) := by
  induction vs generalizing k with
  | nil => exact Bounded.pure (by simp [optsSize])
  | cons v vs ih =>
    obtain ⟨k1, k2, hk, h1, h2⟩ := h
    obtain ⟨v, s, e⟩ := v
    rw [Pile.args]
    refine (Bounded.seq (k2 := k2) (by rw [argW]; exact h1) ?_).mono hk
    refine (Bounded.bind (k2 := k2) bounded_takeType fun t => ?_).mono (Nat.le_of_eq (Nat.zero_add _))
    refine (Bounded.bind (k2 := optSize a b t) (ih h2) fun ts => ?_).mono (by omega)
    exact Bounded.pure (by simp only [optsSize]; omega)

theorem Bounded.mvas {vs : List (W NodeTypeMapValueArguments)} {k : Nat}
    (h : Each (fun v k => Bounded a b zero k (mva v.node)) vs k) : Bounded a b (optsSize a b) k (mvas vs) := by
  induction vs generalizing k with
  | nil => exact Bounded.pure (by simp [optsSize])
  | cons v vs ih =>
    obtain ⟨k1, k2, hk, h1, h2⟩ := h
    obtain ⟨v, s, e⟩ := v
    rw [Pile.mvas]
    refine (Bounded.seq (k2 := k2) (by rw [mvaW]; exact h1) ?_).mono hk
    refine (Bounded.bind (k2 := k2) bounded_takeType fun t => ?_).mono (Nat.le_of_eq (Nat.zero_add _))
    refine (Bounded.bind (k2 := optSize a b t) (ih h2) fun ts => ?_).mono (by omega)
    exact Bounded.pure (by simp only [optsSize]; omega)

theorem declSize_fields (x : Field) (xs : List Field) : fieldsSize a b (x :: xs) = declSize a b x + fieldsSize a b xs := by
  cases x; rfl

theorem Bounded.fields {vs : List (W NodeAddressTypeField)} {k : Nat}
    (h : Each (fun v k => Bounded a b zero k (field v.node)) vs k) : Bounded a b (fieldsSize a b) k (fields vs) := by
  induction vs generalizing k with
  | nil => exact Bounded.pure (by simp [fieldsSize])
  | cons v vs ih =>
    obtain ⟨k1, k2, hk, h1, h2⟩ := h
    obtain ⟨v, s, e⟩ := v
    rw [Pile.fields]
    refine (Bounded.seq (k2 := k2) (by rw [fieldW]; exact h1) ?_).mono hk
    refine (Bounded.bind (k2 := k2) bounded_takeDecl fun t => ?_).mono (Nat.le_of_eq (Nat.zero_add _))
    refine (Bounded.bind (k2 := declSize a b t) (ih h2) fun ts => ?_).mono (by omega)
    exact Bounded.pure (by rw [declSize_fields]; omega)

theorem Bounded.declared {ns : List NodeTypedIdentifier} {k : Nat}
    (h : Each (fun n k => Bounded a b zero k (typed n)) ns k) : Bounded a b (fieldsSize a b) k (declared ns) := by
  induction ns generalizing k with
  | nil => exact Bounded.pure (by simp [fieldsSize])
  | cons v vs ih =>
    obtain ⟨k1, k2, hk, h1, h2⟩ := h
    rw [Pile.declared]
    refine (Bounded.seq (k2 := k2) h1 ?_).mono hk
    refine (Bounded.bind (k2 := k2) bounded_takeDecl fun t => ?_).mono (Nat.le_of_eq (Nat.zero_add _))
    refine (Bounded.bind (k2 := declSize a b t) (ih h2) fun ts => ?_).mono (by omega)
    exact Bounded.pure (by rw [declSize_fields]; omega)

theorem Bounded.again {ns : List NodeTypedIdentifier} {k : Nat}
    (h : Each (fun n k => Bounded a b zero k (typed n)) ns k) : Bounded a b zero k (again ns) := by
  induction ns generalizing k with
  | nil => exact Bounded.pure (Nat.zero_le _)
  | cons v vs ih =>
    obtain ⟨k1, k2, hk, h1, h2⟩ := h
    rw [Pile.again]
    exact (Bounded.seq (k2 := k2) h1 (ih h2)).mono hk

theorem Bounded.transitions {ts : List NodeTransitionDefinition} {k : Nat}
    (h : Each (fun t k => Bounded a b (transSize a b) k (transition t)) ts k) :
    Bounded a b (transitionsSize a b) k (transitions ts) := by
  induction ts generalizing k with
  | nil => exact Bounded.pure (by simp [transitionsSize])
  | cons v vs ih =>
    obtain ⟨k1, k2, hk, h1, h2⟩ := h
    rw [Pile.transitions]
    refine (Bounded.bind (k2 := k2) h1 fun t => ?_).mono hk
    refine (Bounded.bind (k2 := transSize a b t) (ih h2) fun ts => ?_).mono (by omega)
    exact Bounded.pure (by simp only [transitionsSize, transSize]; omega)

theorem Each.map {α β : Type} {R : α → Nat → Prop} {S : β → Nat → Prop} {f : α → β} (h : ∀ v k, R v k → S (f v) k)
    {vs : List α} {k : Nat} (hv : Each R vs k) : Each S (vs.map f) k := by
  induction vs generalizing k with
  | nil => trivial
  | cons v vs ih =>
    obtain ⟨k1, k2, hk, h1, h2⟩ := hv
    exact ⟨k1, k2, hk, h _ _ h1, ih h2⟩

theorem Each.mono {α : Type} {R : α → Nat → Prop} {vs : List α} {k k' : Nat} (hv : Each R vs k) (h : k ≤ k') : Each R vs k' := by
  cases vs with
  | nil => trivial
  | cons v vs =>
    obtain ⟨k1, k2, hk, h1, h2⟩ := hv
    exact ⟨k1, k2, by omega, h1, h2⟩

theorem Each.append {α : Type} {R : α → Nat → Prop} {us vs : List α} {k k' : Nat} (hu : Each R us k) (hv : Each R vs k') :
    Each R (us ++ vs) (k + k') := by
  induction us generalizing k with
  | nil => exact hv.mono (by omega)
  | cons u us ih =>
    obtain ⟨k1, k2, hk, h1, h2⟩ := hu
    exact ⟨k1, k2 + k', by omega, h1, ih h2⟩

theorem Each.transitions {cs : List (W NodeComponentDefinition)} {k : Nat} (h : Each (Made a b .compDef) cs k) :
    Each (fun t k => Bounded a b (transSize a b) k (transition t)) (transitionsOf cs) k := by
  induction cs generalizing k with
  | nil => trivial
  | cons c cs ih =>
    obtain ⟨k1, k2, hk, h1, h2⟩ := h
    obtain ⟨c, s, e⟩ := c
    cases c with
    | transitionComponent t => exact ⟨k1, k2, hk, h1 t rfl, ih h2⟩
    | procedureComponent t => exact (ih h2).mono (by omega)

theorem bounded_transition {t : NodeTransitionDefinition} {k1 k2 : Nat} (h1 : a + b * (componentName t.name.node).length ≤ k1)
    (h2 : Bounded a b (fieldsSize a b) k2 (declared (typedOf t.parameters.node.parameters))) :
    Bounded a b (transSize a b) (k1 + k2) (transition t) := by
  unfold transition
  refine Bounded.seq (Bounded.put h1) ?_
  refine (Bounded.bind (k2 := 0) h2 fun ps => ?_)
  refine (Bounded.bind (k1 := 0) (k2 := fieldsSize a b ps) bounded_takeName fun n => ?_).mono (by omega)
  split
  · exact Bounded.pure (by simp only [transSize, nameSize]; omega)
  · exact Bounded.panic

theorem bounded_typed {n : NodeTypedIdentifier} {k1 k2 : Nat} (h1 : a + b * n.identifierName.node.length ≤ k1)
    (h2 : Bounded a b zero k2 (typeW n.annotation.node.typeName)) : Bounded a b zero (k1 + k2) (typed n) := by
  unfold typed
  refine (Bounded.seq (k2 := k1) h2 ?_).mono (by omega)
  refine (Bounded.bind (k1 := 0) (k2 := k1) bounded_takeType fun t => ?_).mono (by omega)
  cases t with
  | none => exact Bounded.panic
  | some t => exact Bounded.put (by simp only [Thing.size, optSize]; omega)

theorem bounded_contract {p : NodeProgram} {k1 k2 k3 k4 : Nat}
    (h1 : Made a b .typeName p.contractDefinition.node.contractName k1)
    (h2 : Made a b .compParams p.contractDefinition.node.parameters k2)
    (h3 : Made a b (.star .contractField) p.contractDefinition.node.fields k3)
    (h4 : Made a b (.star .compDef) p.contractDefinition.node.components k4) :
    Bounded a b (Contract.size a b) (2 * k1 + 2 * k2 + k3 + k4) (contract p) := by
  unfold contract
  refine (Bounded.seq (k2 := k1 + 2 * k2 + k3 + k4) h1.1 ?_).mono (by omega)
  refine (Bounded.bind (k2 := k1 + k2 + k3 + k4) h2.1 fun ps => ?_).mono (by omega)
  refine (Bounded.seq (k2 := fieldsSize a b ps + k1 + k3 + k4) h2.2 ?_).mono (by omega)
  have h3' : Each (fun n k => Bounded a b zero k (typed n)) (fieldTypedOf p.contractDefinition.node.fields) k3 :=
    Each.map (f := fun x : W NodeContractField => x.node.typedIdentifier.node) (fun _ _ h => h) h3
  refine (Bounded.bind (k2 := fieldsSize a b ps + k1 + k4) (Bounded.declared h3') fun fs => ?_).mono (by omega)
  refine (Bounded.bind (k2 := fieldsSize a b ps + fieldsSize a b fs + k1) (Bounded.transitions h4.transitions)
    fun ts => ?_).mono (by omega)
  have := h1.2
  exact Bounded.pure (by simp only [Contract.size]; omega)

theorem Made.mono {n : NT} {v : Val n} {k k' : Nat} (h : Made a b n v k) (hk : k ≤ k') : Made a b n v k' := by
  cases n <;> first
    | trivial
    | exact Bounded.mono h hk
    | exact Nat.le_trans h hk
    | exact ⟨Bounded.mono h.1 hk, Nat.le_trans h.2 hk⟩
    | exact ⟨Bounded.mono h.1 hk, Bounded.mono h.2 hk⟩
    | exact fun x e => Nat.le_trans (h x e) hk
    | exact fun x e => Bounded.mono (h x e) hk
    | exact Bounded.mono h (Nat.mul_le_mul_left 2 hk)
    | exact fun x e => Bounded.mono (h x e) (Nat.mul_le_mul_left 2 hk)
    | exact Each.mono h hk

theorem bounded_generic {m : W NodeMetaIdentifier} {f : Step (List (Option Ty))} {k1 k2 : Nat}
    (h1 : Bounded a b zero k1 (qualified m.node)) (h2 : Bounded a b (optsSize a b) k2 f) :
    Bounded a b zero (k1 + k2) (do
      qualified m.node
      let n ← takeName
      let ts ← f
      put (.type (applied n.1 ts))) := by
  refine Bounded.seq h1 ?_
  refine (Bounded.bind (k1 := 0) (k2 := k2) bounded_takeName fun n => ?_).mono (by omega)
  refine (Bounded.bind (k2 := nameSize a b n) h2 fun ts => ?_).mono (by omega)
  refine Bounded.put ?_
  have := applied_size (a := a) (b := b) n.1 ts
  simp only [Thing.size, nameSize] at this ⊢
  omega

theorem bounded_address {n : W NodeTypeNameIdentifier} {tag : W Str} {fs : List (W NodeAddressTypeField)} {k1 k2 k3 : Nat}
    (h1 : Bounded a b zero k1 (typeName n.node)) (h2 : b * tag.node.length ≤ k2)
    (h3 : Bounded a b (fieldsSize a b) k3 (fields fs)) :
    Bounded a b zero (k1 + k2 + k3) (Pile.addressType (.mk n tag fs)) := by
  rw [Pile.addressType]
  refine Bounded.ignoring ?_
  refine (Bounded.seq (k2 := k2 + k3) h1 ?_).mono (by omega)
  refine (Bounded.bind (k1 := 0) (k2 := k2 + k3) bounded_takeName fun n => ?_).mono (by omega)
  refine (Bounded.bind (k2 := nameSize a b n + k2) h3 fun ts => ?_).mono (by omega)
  refine Bounded.put ?_
  unfold address
  split
  · simp only [Thing.size, optSize, Ty.size, nameSize]; omega
  · have := applied_size (a := a) (b := b) n.1 []
    simp only [Thing.size, nameSize, optsSize] at this ⊢
    omega

theorem bounded_map {k : W NodeTypeMapKey} {v : W NodeTypeMapValue} {k1 k2 k3 : Nat} (h1 : Bounded a b zero k1 (key k.node))
    (h2 : Bounded a b zero k2 (value v.node)) (h3 : a + 3 * b ≤ k3) :
    Bounded a b zero (k1 + k2 + k3) (do keyW k; valueW v; asMap) := by
  obtain ⟨k, _, _⟩ := k
  obtain ⟨v, _, _⟩ := v
  refine (Bounded.seq (k2 := k2 + k3) (by rw [keyW]; exact h1) ?_).mono (by omega)
  exact Bounded.seq (by rw [valueW]; exact h2) (bounded_asMap h3)

theorem bounded_then_asType {m : Step Unit} {k : Nat} (h : Bounded a b zero k m) : Bounded a b zero k (do m; asType) :=
  (Bounded.seq (k2 := 0) h bounded_asType).mono (by omega)

theorem bounded_fieldsOpt {fs : Option (List (W NodeAddressTypeField))} {k : Nat}
    (h : Each (Made a b .addressFieldList) fs.toList k) : Bounded a b (fieldsSize a b) k (fields (fs.getD [])) := by
  cases fs with
  | none => exact Bounded.fields (vs := []) trivial
  | some fs =>
    obtain ⟨k1, k2, hk, h1, -⟩ := h
    exact Bounded.mono h1 (by omega)

theorem bounded_fieldsCons {f : W NodeAddressTypeField} {fs : List (W NodeAddressTypeField)} {k1 k2 : Nat}
    (h1 : Made a b .addressField f k1) (h2 : Made a b (.star .nextAddressField) fs k2) :
    Bounded a b (fieldsSize a b) (k1 + k2) (fields (f :: fs)) :=
  Bounded.fields ⟨_, _, Nat.le_refl _, h1, h2⟩

theorem bounded_field {i : W NodeVariableIdentifier} {t : W NodeScillaType} {k1 k2 : Nat} (h1 : Made a b .varId i k1)
    (h2 : Bounded a b zero k2 (type t.node)) : Bounded a b zero (k1 + k2) (field (.mk i t)) := by
  obtain ⟨i, _, _⟩ := i
  obtain ⟨t, _, _⟩ := t
  cases i with
  | variableName x =>
    rw [field, typeW]
    have hx := h1 x rfl
    refine (Bounded.seq (k2 := k1) h2 ?_).mono (by omega)
    refine (Bounded.bind (k1 := 0) (k2 := k1) bounded_takeType fun t => ?_).mono (by omega)
    cases t with
    | none => exact Bounded.panic
    | some t => exact Bounded.put (by simp only [Thing.size, optSize]; omega)
  | specialIdentifier x => rw [field.eq_def]; exact Bounded.pure (Nat.zero_le _)
  | variableInNamespace x y => rw [field.eq_def]; exact Bounded.pure (Nat.zero_le _)

theorem params_each {p : Option (W NodeParameterPair)} {ps : List (W NodeParameterPair)} {k1 k2 : Nat}
    (h1 : Each (Made a b .paramPair) p.toList k1) (h2 : Each (Made a b .nextParamPair) ps k2) :
    Each (fun n k => Bounded a b zero k (typed n)) (typedOf (p.toList ++ ps)) (k1 + k2) := by
  rw [typedOf, List.map_append]
  exact Each.append
    (Each.map (f := fun x : W NodeParameterPair => x.node.identifierWithType.node) (fun _ _ h => h) h1)
    (Each.map (f := fun x : W NodeParameterPair => x.node.identifierWithType.node) (fun _ _ h => h) h2)

macro "fits" : tactic => `(tactic|
  ((try simp only [bare_append, bare_cons, bare_nil, tokSize_append, tokSize_cons, tokSize_nil]) <;> omega))

theorem map_length : a + 3 * b ≤ a + b * Token.map.text.length := by
  show a + 3 * b ≤ a + b * 3
  omega

theorem made {n : NT} {w : List STok} {v : Val n} (d : Derives n w v) : Made a b n v (tokSize a b (bare w)) := by
  induction d
  case starNil => trivial
  case starCons d1 d2 ih1 ih2 => exact ⟨_, _, by simp, ih1, ih2⟩
  case plusIntro d1 d2 ih1 ih2 => exact ⟨_, _, by simp, ih1, ih2⟩
  case optNone => trivial
  case optSome d ih => exact ⟨_, 0, by simp, ih, trivial⟩
  all_goals try trivial
  all_goals try subst_vars
  case regularId => exact Nat.le_refl _
  case specialId => exact Nat.le_refl _
  case customId => exact Nat.le_refl _
  case byteString => exact Nat.le_refl _
  case typeNameBytes d ih => exact ⟨Bounded.put ih, ih⟩
  case typeNameEvent => exact ⟨Bounded.pure (Nat.zero_le _), Nat.le_refl _⟩
  case typeNameCustom d ih => exact ⟨Bounded.put ih, ih⟩
  case metaName d ih => exact ih.1
  case metaNamespace d1 d2 ih1 ih2 => exact (Bounded.seq ih1.1 ih2.1).mono (by fits)
  case metaHexspace d1 d2 ih1 ih2 => exact Bounded.mono ih2.1 (by fits)
  case metaByStr => exact Bounded.put (Nat.le_refl _)
  case varName d ih =>
    intro x e
    cases e
    exact ih
  case varSpecial => exact fun x e => by cases e
  case varNamespace => exact fun x e => by cases e
  case remGeneric d1 d2 ih1 ih2 =>
    show Bounded _ _ _ _ (type _)
    simp only [mkW]
    rw [type]
    exact (bounded_generic ih1 (Bounded.args ih2)).mono (by fits)
  case remMap d1 d2 ih1 ih2 =>
    show Bounded _ _ _ _ (type _)
    simp only [mkW]
    rw [type]
    exact (bounded_map ih1 ih2 map_length).mono (by fits)
  case remParen t d ih =>
    obtain ⟨t, _, _⟩ := t
    show Bounded _ _ _ _ (type _)
    simp only [mkW]
    rw [type, typeW]
    exact Bounded.mono ih (by fits)
  case remAddress v d ih =>
    obtain ⟨v, _, _⟩ := v
    show Bounded _ _ _ _ (type _)
    simp only [mkW]
    rw [type, addressW]
    exact Bounded.mono ih (by fits)
  case remForall =>
    show Bounded _ _ _ _ (type _)
    simp only [mkW]
    rw [type]
    exact Bounded.panic
  case remTypeVar =>
    show Bounded _ _ _ _ (type _)
    simp only [mkW]
    rw [type]
    exact Bounded.panic
  case funSigMore =>
    show Bounded _ _ _ _ (type _)
    simp only [mkW]
    rw [type]
    exact Bounded.panic
  case funSigLast =>
    show Bounded _ _ _ _ (type _)
    simp only [mkW]
    rw [type]
    exact Bounded.panic
  case argParen v d ih =>
    obtain ⟨v, _, _⟩ := v
    show Bounded _ _ _ _ (arg _)
    simp only [mkW]
    rw [arg, typeW]
    exact Bounded.mono ih (by fits)
  case argMeta d ih =>
    show Bounded _ _ _ _ (arg _)
    simp only [mkW]
    rw [arg]
    exact (bounded_then_asType ih).mono (by fits)
  case argTemplate =>
    show Bounded _ _ _ _ (arg _)
    simp only [mkW]
    rw [arg]
    exact Bounded.panic
  case argAddress v d ih =>
    obtain ⟨v, _, _⟩ := v
    show Bounded _ _ _ _ (arg _)
    simp only [mkW]
    rw [arg, addressW]
    exact Bounded.mono ih (by fits)
  case argMap d1 d2 ih1 ih2 =>
    show Bounded _ _ _ _ (arg _)
    simp only [mkW]
    rw [arg]
    exact (bounded_map ih1 ih2 map_length).mono (by fits)
  case addrEmpty d ih =>
    exact (bounded_address (k2 := 0) (k3 := 0) ih.1 (by simp [mkW]) (Bounded.fields (vs := []) (k := 0) trivial)).mono (by fits)
  case addrContract d1 d2 ih1 ih2 =>
    exact (bounded_address (k2 := b * Token.contract.text.length) ih1.1 (Nat.le_refl _) (bounded_fieldsOpt ih2)).mono (by fits)
  case addrLibrary d ih =>
    exact (bounded_address (k2 := b * Token.library.text.length) (k3 := 0) ih.1 (Nat.le_refl _)
      (Bounded.fields (vs := []) (k := 0) trivial)).mono (by fits)
  case addrSpecial d1 d2 ih1 ih2 =>
    exact (bounded_address (k3 := 0) ih1.1 (Nat.le_trans (Nat.le_add_left _ _) ih2)
      (Bounded.fields (vs := []) (k := 0) trivial)).mono (by fits)
  case addrFieldList d1 d2 ih1 ih2 => exact (bounded_fieldsCons ih1 ih2).mono (by fits)
  case nextAddrField d ih => exact Bounded.mono ih (by fits)
  case addrField d1 d2 ih1 ih2 => exact (bounded_field ih1 ih2).mono (by fits)
  case keyMeta d ih =>
    show Bounded _ _ _ _ (key _)
    simp only [mkW]
    rw [key]
    exact (bounded_then_asType ih).mono (by fits)
  case keyParenMeta d ih =>
    show Bounded _ _ _ _ (key _)
    simp only [mkW]
    rw [key]
    exact (bounded_then_asType ih).mono (by fits)
  case keyParenAddress v d ih =>
    obtain ⟨v, _, _⟩ := v
    show Bounded _ _ _ _ (key _)
    simp only [mkW]
    rw [key, addressW]
    exact (bounded_then_asType ih).mono (by fits)
  case keyAddress v d ih =>
    obtain ⟨v, _, _⟩ := v
    show Bounded _ _ _ _ (key _)
    simp only [mkW]
    rw [key, addressW]
    exact (bounded_then_asType ih).mono (by fits)
  case valMeta d ih =>
    show Bounded _ _ _ _ (value _)
    simp only [mkW]
    rw [value]
    exact (bounded_then_asType ih).mono (by fits)
  case valMap k v d1 d2 ih1 ih2 =>
    show Bounded _ _ _ _ (value _)
    simp only [mkW]
    rw [value, entryW, entry]
    obtain ⟨k, _, _⟩ := k
    obtain ⟨v, _, _⟩ := v
    refine (Bounded.seq (k2 := a + b * Token.map.text.length) (Bounded.seq (by rw [keyW]; exact ih1) (by rw [valueW]; exact ih2))
      (bounded_asMap map_length)).mono (by fits)
  case valParen v d ih =>
    obtain ⟨v, _, _⟩ := v
    show Bounded _ _ _ _ (value _)
    simp only [mkW]
    rw [value, mvW]
    exact Bounded.mono ih (by fits)
  case valAddress v d ih =>
    obtain ⟨v, _, _⟩ := v
    show Bounded _ _ _ _ (value _)
    simp only [mkW]
    rw [value, addressW]
    exact Bounded.mono ih (by fits)
  case mvaParen v d ih =>
    obtain ⟨v, _, _⟩ := v
    show Bounded _ _ _ _ (mva _)
    simp only [mkW]
    rw [mva, mvW]
    exact Bounded.mono ih (by fits)
  case mvaMeta d ih =>
    show Bounded _ _ _ _ (mva _)
    simp only [mkW]
    rw [mva]
    exact (bounded_then_asType ih).mono (by fits)
  case mvaMap =>
    show Bounded _ _ _ _ (mva _)
    simp only [mkW]
    rw [mva]
    exact Bounded.panic
  case program d1 d2 d3 d4 ih1 ih2 ih3 ih4 => exact (ih4 _ rfl).mono (by fits)
  case typedId d1 d2 ih1 ih2 => exact (bounded_typed (n := ⟨_, _⟩) ih1 ih2).mono (by fits)
  case typeAnn t d ih =>
    obtain ⟨t, _, _⟩ := t
    show Bounded _ _ _ _ (typeW _)
    simp only [mkW]
    rw [typeW]
    exact Bounded.mono ih (by fits)
  case mvWithArgs d1 d2 ih1 ih2 =>
    show Bounded _ _ _ _ (mv _)
    simp only [mkW]
    rw [mv]
    exact (bounded_generic ih1 (Bounded.mvas ih2)).mono (by fits)
  case mvNoArgs v d ih =>
    obtain ⟨v, _, _⟩ := v
    show Bounded _ _ _ _ (mv _)
    simp only [mkW]
    rw [mv, valueW]
    exact ih
  case componentType d ih => exact ih.2
  case nextParamPair d ih => exact Bounded.mono ih (by fits)
  case compParams d1 d2 ih1 ih2 =>
    have := params_each ih1 ih2
    exact ⟨(Bounded.declared this).mono (by fits), (Bounded.again this).mono (by fits)⟩
  case compTransition d ih => exact fun t e => by cases e; exact ih
  case compProcedure => exact fun t e => by cases e
  case transDef d1 d2 d3 ih1 ih2 ih3 => exact (bounded_transition ih1 ih2.1).mono (by fits)
  case contractDef d1 d2 d3 d4 d5 ih1 ih2 ih3 ih4 ih5 =>
    intro p e
    refine (bounded_contract (k1 := _) (k2 := _) (k3 := _) (k4 := _) (by rw [e]; exact ih1) (by rw [e]; exact ih2)
      (by rw [e]; exact ih4) (by rw [e]; exact ih5)).mono (by fits)
  case contractField d1 d2 ih1 ih2 => exact Bounded.mono ih1 (by fits)

end Verif.Pile
