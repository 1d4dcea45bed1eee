import Verif.Proofs.MeaningProgram
/-
In ordinary token lists every type either has a clean reading, or panics or fails.
-/
namespace Verif

theorem inf_left {a b w : List Token} (h : w <:+: a) : w <:+: a ++ b := h.trans (List.infix_append' [] a b)
theorem inf_right {a b w : List Token} (h : w <:+: b) : w <:+: a ++ b :=
  h.trans ⟨a, [], by simp⟩
theorem inf_cons {a : Token} {b w : List Token} (h : w <:+: b) : w <:+: a :: b := h.trans ⟨[a], [], by simp⟩

syntax "inf" : tactic
macro_rules
  | `(tactic| inf) => `(tactic| first
    | exact List.infix_rfl
    | (apply inf_cons; inf)
    | (apply inf_left; inf)
    | (apply inf_right; inf))

/-- a reading that is neither misread nor, if `b`, a failure or one that ignores a namespace -/
def Reading.fine (b : Bool) (r : Reading) : Prop :=
  r ≠ .bad .misread ∧ (b = true → r ≠ .bad .fails ∧ ∀ l o, r = .clean l o → l = [])

/-- the fields of an address type have a reading without namespaces, or panic -/
def FineFields (e : Except Problem (List Str × List Field)) : Prop :=
  e = .error .panics ∨ ∃ fs, e = .ok ([], fs)

/-- the condition on the whole token list -/
structure OrdinaryAt (b : Bool) (w : List Token) : Prop where
  noEvent : Token.eventType ∉ w
  custom : ∀ s, Token.customIdentifier s ∈ w → '+' ∉ s
  bytes : ∀ s, Token.byStrWithSize s ∈ w → '+' ∉ s
  fields : ∀ t, [.field, t] <:+: w → ∃ x, t = .identifier x
  strict : b = true → NoOddMaps w
  loose : b = false → ¬ [.with_, .contract, .field] <:+: w

/-- the type of a typed identifier has a fine reading -/
def NodeTypedIdentifier.fine (b : Bool) (n : NodeTypedIdentifier) : Prop := (readTypeW n.annotation.node.typeName).fine b

/-- the types of the parameters of a transition have fine readings -/
def NodeTransitionDefinition.fine (b : Bool) (t : NodeTransitionDefinition) : Prop :=
  ∀ p ∈ typedOf t.parameters.node.parameters, p.fine b

/-- the types of the interface have fine readings -/
structure FineContract (b : Bool) (c : NodeContractDefinition) : Prop where
  params : ∀ p ∈ typedOf c.parameters.node.parameters, p.fine b
  fields : ∀ p ∈ fieldTypedOf c.fields, p.fine b
  transitions : ∀ t ∈ transitionsOf c.components, t.fine b

/-- the claim of `Derives.ordinary` -/
def OrdClaim (b : Bool) : (n : NT) → List STok → Val n → Prop
  | .typeName, w, v => (plainName v.node ≠ none) ∧ ∃ t, wordsOf w = [t] ∧ IsWord t
  | .byteString, w, v => wordsOf w = [.byStrWithSize v.display]
  | .customId, w, v => wordsOf w = [.customIdentifier v.node]
  | .regularId, w, v => wordsOf w = [.identifier v.node]
  | .specialId, w, v => wordsOf w = [.specialIdentifier v.node]
  | .hexNumber, w, v => wordsOf w = [.hexNumber v.node]
  | .metaId, _, v => ∃ l s, metaText v.node = some (l, s) ∧ (b = true → l = [])
  | .varId, w, v => ∀ x u, wordsOf w = .identifier x :: u → ∃ y, v.node = .variableName y
  | .remaining, _, v => (readTypeW v).fine b
  | .funSig, _, v => (readTypeW v).fine b
  | .scillaType, _, v => (readTypeW v).fine b
  | .typeArg, _, v => (readArgW v).fine b
  | .mapKey, w, v => (∀ k, IsWord k → ¬ (b = true ∧ [k, .with_] <+: wordsOf w) ∧
      ¬ (b = true ∧ [.openParen, k, .with_] <+: wordsOf w)) → (readKeyW v).fine b
  | .mapValue, _, v => (readValueW v).fine b
  | .mapValueAllowing, _, v => (readMvW v).fine b
  | .mapValueArgs, _, v => (readMvaW v).fine b
  | .addressType, w, v => (readAddrW v).fine b ∧ ∃ k, IsWord k ∧ [k, .with_] <+: wordsOf w
  | .addressField, w, v => (∃ u, wordsOf w = .field :: u) ∧
      (b = true → ∀ vs, FineFields (readFields vs) → FineFields (readFields (v :: vs)))
  | .nextAddressField, _, v => b = true → ∀ vs, FineFields (readFields vs) → FineFields (readFields (v :: vs))
  | .star .nextAddressField, _, vs => b = true → FineFields (readFields vs)
  | .addressFieldList, w, vs => (∃ u, wordsOf w = .field :: u) ∧ (b = true → FineFields (readFields vs))
  | .opt .addressFieldList, w, o => o = none ∨ ((∃ u, wordsOf w = .field :: u) ∧
      ∃ vs, o = some vs ∧ (b = true → FineFields (readFields vs)))
  | .star .typeArg, _, vs => ∀ r ∈ readArgs vs, r.fine b
  | .star .mapValueArgs, _, vs => ∀ r ∈ readMvas vs, r.fine b
  | .plus .mapValueArgs, _, vs => ∀ r ∈ readMvas vs, r.fine b
  | .typedId, _, v => v.node.fine b
  | .typeAnn, _, v => (readTypeW v.node.typeName).fine b
  | .paramPair, _, v => v.node.identifierWithType.node.fine b
  | .nextParamPair, _, v => v.node.identifierWithType.node.fine b
  | .opt .paramPair, _, o => ∀ p ∈ typedOf o.toList, p.fine b
  | .star .nextParamPair, _, vs => ∀ p ∈ typedOf vs, p.fine b
  | .compParams, _, v => ∀ p ∈ typedOf v.node.parameters, p.fine b
  | .contractField, _, v => v.node.typedIdentifier.node.fine b
  | .star .contractField, _, vs => ∀ p ∈ fieldTypedOf vs, p.fine b
  | .transDef, _, v => v.node.fine b
  | .compDef, _, v => ∀ t ∈ transitionsOf [v], t.fine b
  | .star .compDef, _, vs => ∀ t ∈ transitionsOf vs, t.fine b
  | .contractDef, _, v => FineContract b v.node
  | .program, _, v => FineContract b v.contractDefinition.node
  | _, _, _ => True

theorem fine_panics (b : Bool) : (Reading.bad .panics).fine b := by simp [Reading.fine]

theorem fine_name {b : Bool} {m : NodeMetaIdentifier} (h : ∃ l s, metaText m = some (l, s) ∧ (b = true → l = [])) :
    (readName m).fine b := by
  obtain ⟨l, s, e, h⟩ := h
  simp [readName, e, Reading.fine]
  exact h

theorem fine_go {b : Bool} (s : Str) : ∀ (rs : List Reading) (left : List Str) (acc : List (Option Ty)),
    (∀ r ∈ rs, r.fine b) → (b = true → left = []) → (applyName.go s rs left acc).fine b
  | [], left, acc, _, h => by simp [applyName.go, Reading.fine]; exact h
  | .bad w :: rs, left, acc, h, _ => by simpa [applyName.go] using h (.bad w) (by simp)
  | .clean k t :: rs, left, acc, h, h' => by
    rw [applyName.go]
    refine fine_go s rs _ _ (fun r hr => h r (by simp [hr])) fun hb => ?_
    rw [h' hb, ((h _ (List.mem_cons_self ..)).2 hb).2 _ _ rfl]; rfl

theorem fine_apply {b : Bool} {m : NodeMetaIdentifier} (h : ∃ l s, metaText m = some (l, s) ∧ (b = true → l = []))
    {rs : List Reading} (hr : ∀ r ∈ rs, r.fine b) : (applyName m rs).fine b := by
  obtain ⟨l, s, e, h⟩ := h
  rw [applyName, e]
  exact fine_go s rs _ _ hr h

theorem fine_map {b : Bool} {k v : Reading} (hk : k.fine b) (hv : v.fine b) : (readMap k v).fine b := by
  cases k with
  | bad w => exact hk
  | clean l o =>
    cases v with
    | bad w => cases o <;> exact hv
    | clean l' o' =>
      cases l' with
      | nil =>
        rw [readMap_clean]
        simp only [Reading.fine, ne_eq, reduceCtorEq, not_false_eq_true, Reading.clean.injEq, true_and] at hk ⊢
        intro hb l'' o'' e
        rw [← e.1]; exact hk hb l o ⟨rfl, rfl⟩
      | cons x xs =>
        simp only [readMap, Reading.fine]
        refine ⟨by simp, fun hb => ?_⟩
        exact absurd ((hv.2 hb).2 _ _ rfl) (by simp)

theorem fine_asKey {b : Bool} {r : Reading} (hr : r.fine b) (hb : b = false) : (asKey r).fine b := by
  subst hb
  cases r with
  | clean l o => simp [asKey, Reading.fine]
  | bad w => exact hr

theorem fine_addr {b : Bool} {i : W NodeTypeNameIdentifier} {tag : W Str} {fs : List (W NodeAddressTypeField)}
    (hi : plainName i.node ≠ none) (hf : fs = [] ∨ FineFields (readFields fs)) : (readAddr (.mk i tag fs)).fine b := by
  cases e : plainName i.node with
  | none => exact absurd e hi
  | some s =>
    have hf : FineFields (readFields fs) := hf.elim (fun h => by subst h; exact .inr ⟨[], by rw [readFields]⟩) id
    rcases hf with hf | ⟨gs, hf⟩
    · simp [readAddr, e, hf, Reading.fine]
    · simp [readAddr, e, hf, Reading.fine]

theorem Derives.ordinary {b : Bool} {f : List Token} (ho : OrdinaryAt b f) {n : NT} {w : List STok} {v : Val n}
    (d : Derives n w v) (hf : wordsOf w <:+: f) : OrdClaim b n w v := by
  induction d
  case starNil n =>
    cases n
    case typeArg => intro r hr; simp [readArgs] at hr
    case mapValueArgs => intro r hr; simp [readMvas] at hr
    case nextAddressField => intro _; exact .inr ⟨[], by rw [readFields]⟩
    case nextParamPair => intro p hp; simp [typedOf] at hp
    case contractField => intro p hp; simp [fieldTypedOf] at hp
    case compDef => intro p hp; simp [transitionsOf] at hp
    all_goals trivial
  case starCons n w1 v w2 vs _ _ ih ih' =>
    rw [wordsOf_append] at hf
    have a := ih (List.IsInfix.trans (by inf) hf)
    have a' := ih' (List.IsInfix.trans (by inf) hf)
    cases n
    case typeArg => intro r hr; rw [readArgs, List.mem_cons] at hr; exact hr.elim (fun e => e ▸ a) (a' r)
    case mapValueArgs => intro r hr; rw [readMvas, List.mem_cons] at hr; exact hr.elim (fun e => e ▸ a) (a' r)
    case nextAddressField => intro hb; exact a hb _ (a' hb)
    case nextParamPair =>
      intro p hp
      rw [typedOf, List.map_cons, List.mem_cons] at hp
      exact hp.elim (fun e => e ▸ a) (a' p)
    case contractField =>
      intro p hp
      rw [fieldTypedOf, List.map_cons, List.mem_cons] at hp
      exact hp.elim (fun e => e ▸ a) (a' p)
    case compDef =>
      intro t ht
      have : transitionsOf (v :: vs) = transitionsOf [v] ++ transitionsOf vs := by
        rw [transitionsOf, transitionsOf, transitionsOf, ← List.filterMap_append]; rfl
      rw [this, List.mem_append] at ht
      exact ht.elim (a t) (a' t)
    all_goals trivial
  case plusIntro n w1 v w2 vs _ _ ih ih' =>
    rw [wordsOf_append] at hf
    have a := ih (List.IsInfix.trans (by inf) hf)
    have a' := ih' (List.IsInfix.trans (by inf) hf)
    cases n
    case mapValueArgs => intro r hr; rw [readMvas, List.mem_cons] at hr; exact hr.elim (fun e => e ▸ a) (a' r)
    all_goals trivial
  case optNone n =>
    cases n
    case addressFieldList => exact .inl rfl
    case paramPair => intro p hp; simp [typedOf] at hp
    all_goals trivial
  case optSome n w v _ ih =>
    have a := ih hf
    cases n
    case addressFieldList => exact .inr ⟨a.1, _, rfl, a.2⟩
    case paramPair =>
      intro p hp
      simp only [typedOf, Option.toList, List.map_cons, List.map_nil, List.mem_singleton] at hp
      exact hp ▸ a
    all_goals trivial
  case hexNumber => subst_vars; rfl
  case regularId => subst_vars; rfl
  case specialId => subst_vars; rfl
  case customId => subst_vars; rfl
  case byteString => subst_vars; rfl
  case typeNameBytes w x _ ih =>
    have a : wordsOf w = [.byStrWithSize x.display] := ih hf
    refine ⟨?_, _, a, _, .inr rfl⟩
    have := ho.bytes x.display (hf.subset (by rw [a]; simp))
    simp [mkW, plainName, this]
  case typeNameEvent hw =>
    subst hw
    exact absurd (hf.subset (by simp)) ho.noEvent
  case typeNameCustom w c _ ih =>
    have a : wordsOf w = [.customIdentifier c.node] := ih hf
    refine ⟨?_, _, a, _, .inl rfl⟩
    have := ho.custom c.node (hf.subset (by rw [a]; simp))
    simp [mkW, plainName, this]
  case metaName w n _ ih =>
    obtain ⟨h, -⟩ := ih hf
    obtain ⟨s, e⟩ := Option.ne_none_iff_exists'.1 h
    exact ⟨[], s, by simp [mkW, metaText, e], fun _ => rfl⟩
  case metaNamespace a b' hw _ _ ih ih' =>
    rw [hw, wordsOf_append, wordsOf_cons] at hf
    obtain ⟨h, t, ht, hi⟩ := ih (List.IsInfix.trans (by inf) hf)
    obtain ⟨h', t', ht', hi'⟩ := ih' (List.IsInfix.trans (by inf) hf)
    obtain ⟨s, e⟩ := Option.ne_none_iff_exists'.1 h
    obtain ⟨s', e'⟩ := Option.ne_none_iff_exists'.1 h'
    refine ⟨[s], s', by simp [mkW, metaText, e, e'], fun hb => ?_⟩
    rw [ht, ht'] at hf
    exact absurd hf ((ho.strict hb).names t t' hi hi')
  case metaHexspace hw _ _ ih ih' =>
    rw [hw, wordsOf_append, wordsOf_cons] at hf
    obtain ⟨h', -⟩ := ih' (List.IsInfix.trans (by inf) hf)
    obtain ⟨s', e'⟩ := Option.ne_none_iff_exists'.1 h'
    exact ⟨[], s', by simp [mkW, metaText, e'], fun _ => rfl⟩
  case metaByStr hw => exact ⟨[], _, rfl, fun _ => rfl⟩
  case varName w n _ ih => intro x u h; exact ⟨n, rfl⟩
  case varSpecial ih =>
    intro x u h
    have a := ih hf
    rw [OrdClaim] at a
    rw [a] at h; simp at h
  case varNamespace hw _ _ ih ih' =>
    intro x u h
    rw [hw, wordsOf_append, wordsOf_cons] at hf
    obtain ⟨-, t, ht, s, hi⟩ := ih (List.IsInfix.trans (by inf) hf)
    rw [hw, wordsOf_append, ht] at h
    simp only [List.singleton_append, List.cons.injEq] at h
    rw [h.1] at hi; simp at hi
  case remGeneric hw _ _ ih ih' =>
    rw [hw, wordsOf_append] at hf
    simp only [OrdClaim, mkW, readTypeW, readType]
    exact fine_apply (ih (List.IsInfix.trans (by inf) hf)) (ih' (List.IsInfix.trans (by inf) hf))
  case remMap hw _ _ ih ih' =>
    rw [hw, wordsOf_cons, wordsOf_append] at hf
    simp only [OrdClaim, mkW, readTypeW, readType]
    refine fine_map (ih (List.IsInfix.trans (by inf) hf) fun k hk => ?_) (ih' (List.IsInfix.trans (by inf) hf))
    constructor
    · rintro ⟨hb, u, hu⟩
      exact (ho.strict hb).keys k hk (List.IsInfix.trans ⟨[], u ++ _, by rw [← hu]; simp; rfl⟩ hf)
    · rintro ⟨hb, u, hu⟩
      exact (ho.strict hb).parenKeys k hk (List.IsInfix.trans ⟨[], u ++ _, by rw [← hu]; simp; rfl⟩ hf)
  case remParen hw _ ih =>
    rw [hw, wordsOf_cons, wordsOf_append] at hf
    simp only [OrdClaim, mkW, readTypeW, readType]
    exact ih (List.IsInfix.trans (by inf) hf)
  case remAddress ih =>
    simp only [OrdClaim, mkW, readTypeW, readType]
    exact (ih hf).1
  case remForall => simp only [OrdClaim, mkW, readTypeW, readType]; exact fine_panics b
  case remTypeVar => simp only [OrdClaim, mkW, readTypeW, readType]; exact fine_panics b
  case funSigMore => simp only [OrdClaim, mkW, readTypeW, readType]; exact fine_panics b
  case funSigLast => simp only [OrdClaim, mkW, readTypeW, readType]; exact fine_panics b
  case typeFun ih => exact ih hf
  case typeRem ih => exact ih hf
  case argParen hw _ ih =>
    rw [hw, wordsOf_cons, wordsOf_append] at hf
    simp only [OrdClaim, mkW, readArgW, readArg]
    exact ih (List.IsInfix.trans (by inf) hf)
  case argMeta ih =>
    simp only [OrdClaim, mkW, readArgW, readArg]
    exact fine_name (ih hf)
  case argTemplate => simp only [OrdClaim, mkW, readArgW, readArg]; exact fine_panics b
  case argAddress ih =>
    simp only [OrdClaim, mkW, readArgW, readArg]
    exact (ih hf).1
  case argMap hw _ _ ih ih' =>
    rw [hw, wordsOf_cons, wordsOf_append] at hf
    simp only [OrdClaim, mkW, readArgW, readArg]
    refine fine_map (ih (List.IsInfix.trans (by inf) hf) fun k hk => ?_) (ih' (List.IsInfix.trans (by inf) hf))
    constructor
    · rintro ⟨hb, u, hu⟩
      exact (ho.strict hb).keys k hk (List.IsInfix.trans ⟨[], u ++ _, by rw [← hu]; simp; rfl⟩ hf)
    · rintro ⟨hb, u, hu⟩
      exact (ho.strict hb).parenKeys k hk (List.IsInfix.trans ⟨[], u ++ _, by rw [← hu]; simp; rfl⟩ hf)
  case addrEmpty hw _ ih =>
    have hf' := hf
    rw [hw, wordsOf_append] at hf'
    obtain ⟨h, t, ht, hi⟩ := ih (List.IsInfix.trans (by inf) hf')
    exact ⟨by simp only [mkW, readAddrW]; exact fine_addr h (.inl rfl), t, hi, by rw [hw, wordsOf_append, ht]; exact ⟨_, rfl⟩⟩
  case addrContract hw _ _ ih ih' =>
    have hf' := hf
    rw [hw, wordsOf_append, wordsOf_cons, wordsOf_cons, wordsOf_append] at hf'
    obtain ⟨h, t, ht, hi⟩ := ih (List.IsInfix.trans (by inf) hf')
    refine ⟨?_, t, hi, by rw [hw, wordsOf_append, ht]; exact ⟨_, rfl⟩⟩
    simp only [mkW, readAddrW]
    rcases ih' (List.IsInfix.trans (by inf) hf') with rfl | ⟨⟨u, hu⟩, vs, rfl, h5⟩
    · exact fine_addr h (.inl rfl)
    · cases b with
      | true => exact fine_addr h (.inr (h5 rfl))
      | false =>
        refine absurd (List.IsInfix.trans ⟨[t], u ++ [.end_], ?_⟩ hf') (ho.loose rfl)
        rw [hu, ht]; simp
  case addrLibrary hw _ ih =>
    have hf' := hf
    rw [hw, wordsOf_append] at hf'
    obtain ⟨h, t, ht, hi⟩ := ih (List.IsInfix.trans (by inf) hf')
    exact ⟨by simp only [mkW, readAddrW]; exact fine_addr h (.inl rfl), t, hi, by rw [hw, wordsOf_append, ht]; exact ⟨_, rfl⟩⟩
  case addrSpecial hw _ _ ih ih' =>
    have hf' := hf
    rw [hw, wordsOf_append] at hf'
    obtain ⟨h, t, ht, hi⟩ := ih (List.IsInfix.trans (by inf) hf')
    exact ⟨by simp only [mkW, readAddrW]; exact fine_addr h (.inl rfl), t, hi, by rw [hw, wordsOf_append, ht]; exact ⟨_, rfl⟩⟩
  case addrFieldList hw _ _ ih ih' =>
    have hf' := hf
    rw [hw, wordsOf_append] at hf'
    obtain ⟨⟨u, hu⟩, h⟩ := ih (List.IsInfix.trans (by inf) hf')
    have a' := ih' (List.IsInfix.trans (by inf) hf')
    exact ⟨⟨_, by rw [hw, wordsOf_append, hu]; rfl⟩, fun hb => h hb _ (a' hb)⟩
  case nextAddrField hw _ ih =>
    rw [hw, wordsOf_cons] at hf
    exact (ih (List.IsInfix.trans (by inf) hf)).2
  case addrField w w1 w2 i t s1 e1 s2 e2 hw _ _ ih ih' =>
    have hf' := hf
    rw [hw, wordsOf_cons, wordsOf_append, wordsOf_cons] at hf'
    refine ⟨⟨_, by rw [hw, wordsOf_cons]⟩, fun hb vs hvs => ?_⟩
    have a := ih (List.IsInfix.trans (by inf) hf')
    have a' : (readTypeW t).fine b := ih' (List.IsInfix.trans (by inf) hf')
    have : ∃ x u, wordsOf w1 = .identifier x :: u := by
      cases e : wordsOf w1 with
      | nil =>
        rw [e] at hf'
        obtain ⟨x, hx⟩ := ho.fields .colon (List.IsInfix.trans ⟨[], _, rfl⟩ hf')
        simp at hx
      | cons k u =>
        rw [e] at hf'
        obtain ⟨x, hx⟩ := ho.fields k (List.IsInfix.trans ⟨[], _, rfl⟩ hf')
        exact ⟨x, u, by rw [hx]⟩
    obtain ⟨x, u, hx⟩ := this
    obtain ⟨y, hy⟩ := a x u hx
    obtain ⟨z, p, q⟩ := i
    simp only at hy
    subst hy
    simp only [mkW]
    rw [readFields]
    cases e : readTypeW t with
    | bad why =>
      rw [e] at a'
      cases why with
      | panics => exact .inl rfl
      | fails => exact absurd rfl (a'.2 hb).1
      | misread => exact absurd rfl a'.1
    | clean l o =>
      rw [e] at a'
      cases o with
      | none => exact .inl rfl
      | some ty =>
        rw [(a'.2 hb).2 _ _ rfl]
        rcases hvs with h | ⟨fs, h⟩
        · rw [h]; exact .inl rfl
        · rw [h]; exact .inr ⟨_, rfl⟩
  case keyMeta ih =>
    intro _
    simp only [mkW, readKeyW, readKey]
    exact fine_name (ih hf)
  case keyParenMeta hw _ ih =>
    intro _
    rw [hw, wordsOf_cons, wordsOf_append] at hf
    simp only [mkW, readKeyW, readKey]
    exact fine_name (ih (List.IsInfix.trans (by inf) hf))
  case keyParenAddress hw _ ih =>
    intro h
    rw [hw, wordsOf_cons, wordsOf_append] at hf
    simp only [mkW, readKeyW, readKey]
    obtain ⟨h1, k, hk, u, hu⟩ := ih (List.IsInfix.trans (by inf) hf)
    refine fine_asKey h1 ?_
    cases b with
    | false => rfl
    | true =>
      exact absurd ⟨rfl, u ++ _, by rw [hw, wordsOf_cons, wordsOf_append, ← hu]; simp; rfl⟩ (h k hk).2
  case keyAddress ih =>
    intro h
    simp only [mkW, readKeyW, readKey]
    obtain ⟨h1, k, hk, hu⟩ := ih hf
    refine fine_asKey h1 ?_
    cases b with
    | false => rfl
    | true => exact absurd ⟨rfl, hu⟩ (h k hk).1
  case valMeta ih =>
    simp only [OrdClaim, mkW, readValueW, readValue]
    exact fine_name (ih hf)
  case valMap hw _ _ ih ih' =>
    rw [hw, wordsOf_cons, wordsOf_append] at hf
    simp only [OrdClaim, mkW, readValueW, readValue, readEntryW, readEntry]
    refine fine_map (ih (List.IsInfix.trans (by inf) hf) fun k hk => ?_) (ih' (List.IsInfix.trans (by inf) hf))
    constructor
    · rintro ⟨hb, u, hu⟩
      exact (ho.strict hb).keys k hk (List.IsInfix.trans ⟨[], u ++ _, by rw [← hu]; simp; rfl⟩ hf)
    · rintro ⟨hb, u, hu⟩
      exact (ho.strict hb).parenKeys k hk (List.IsInfix.trans ⟨[], u ++ _, by rw [← hu]; simp; rfl⟩ hf)
  case valParen hw _ ih =>
    rw [hw, wordsOf_cons, wordsOf_append] at hf
    simp only [OrdClaim, mkW, readValueW, readValue]
    exact ih (List.IsInfix.trans (by inf) hf)
  case valAddress ih =>
    simp only [OrdClaim, mkW, readValueW, readValue]
    exact (ih hf).1
  case mvaParen hw _ ih =>
    rw [hw, wordsOf_cons, wordsOf_append] at hf
    simp only [OrdClaim, mkW, readMvaW, readMva]
    exact ih (List.IsInfix.trans (by inf) hf)
  case mvaMeta ih =>
    simp only [OrdClaim, mkW, readMvaW, readMva]
    exact fine_name (ih hf)
  case mvaMap => simp only [OrdClaim, mkW, readMvaW, readMva]; exact fine_panics b
  case mvWithArgs hw _ _ ih ih' =>
    rw [hw, wordsOf_append] at hf
    simp only [OrdClaim, mkW, readMvW, readMv]
    exact fine_apply (ih (List.IsInfix.trans (by inf) hf)) (ih' (List.IsInfix.trans (by inf) hf))
  case mvNoArgs ih =>
    simp only [OrdClaim, mkW, readMvW, readMv]
    exact ih hf
  case typeAnn hw _ ih =>
    rw [hw, wordsOf_cons] at hf
    exact ih (List.IsInfix.trans (by inf) hf)
  case typedId hw _ _ ih ih' =>
    rw [hw, wordsOf_append] at hf
    exact ih' (List.IsInfix.trans (by inf) hf)
  case paramPair ih => exact ih hf
  case nextParamPair hw _ ih =>
    rw [hw, wordsOf_cons] at hf
    exact ih (List.IsInfix.trans (by inf) hf)
  case compParams hw _ _ ih ih' =>
    rw [hw, wordsOf_cons, wordsOf_append, wordsOf_append] at hf
    have a := ih (List.IsInfix.trans (by inf) hf)
    have a' := ih' (List.IsInfix.trans (by inf) hf)
    intro p hp
    simp only [mkW, typedOf, List.map_append, List.mem_append] at hp
    exact hp.elim (a p) (a' p)
  case contractField hw _ _ ih ih' =>
    rw [hw, wordsOf_cons, wordsOf_append] at hf
    exact ih (List.IsInfix.trans (by inf) hf)
  case transDef hw _ _ _ ih ih' ih'' =>
    rw [hw, wordsOf_cons, wordsOf_append, wordsOf_append] at hf
    exact ih' (List.IsInfix.trans (by inf) hf)
  case compTransition ih =>
    intro t ht
    simp only [mkW, transitionsOf, List.filterMap_cons, List.filterMap_nil, List.mem_singleton] at ht
    exact ht ▸ ih hf
  case compProcedure =>
    intro t ht
    simp [mkW, transitionsOf] at ht
  case contractDef hw _ _ _ _ _ ih1 ih2 ih3 ih4 ih5 =>
    rw [hw, wordsOf_cons, wordsOf_append, wordsOf_append, wordsOf_append, wordsOf_append] at hf
    exact ⟨ih2 (List.IsInfix.trans (by inf) hf), ih4 (List.IsInfix.trans (by inf) hf),
      ih5 (List.IsInfix.trans (by inf) hf)⟩
  case program hw _ _ _ _ ih1 ih2 ih3 ih4 =>
    rw [hw, wordsOf_cons, wordsOf_append, wordsOf_append, wordsOf_append] at hf
    exact ih4 (List.IsInfix.trans (by inf) hf)
  all_goals trivial

theorem readAll_fine {b : Bool} : ∀ (ns : List NodeTypedIdentifier), (∀ n ∈ ns, n.fine b) →
    readAll ns ≠ .error .misread
  | [], _ => by simp [readAll]
  | n :: ns, h => by
    have a := readAll_fine ns fun m hm => h m (by simp [hm])
    have a' : (readTypeW n.annotation.node.typeName).fine b := h n (by simp)
    rw [readAll]
    cases e : readTypeW n.annotation.node.typeName with
    | bad w => rw [e] at a'; cases w <;> simp; exact absurd rfl a'.1
    | clean l o =>
      cases o with
      | none => simp
      | some t =>
        cases e' : readAll ns with
        | error w => rw [e'] at a; simpa using a
        | ok r => simp

theorem readTransitions_fine {b : Bool} : ∀ (ts : List NodeTransitionDefinition), (∀ t ∈ ts, t.fine b) →
    readTransitions ts ≠ .error .misread
  | [], _ => by simp [readTransitions]
  | t :: ts, h => by
    have a := readTransitions_fine ts fun m hm => h m (by simp [hm])
    have a' := readAll_fine _ (h t (by simp))
    rw [readTransitions]
    cases e : readAll (typedOf t.parameters.node.parameters) with
    | error w => rw [e] at a'; simpa using a'
    | ok r =>
      obtain ⟨l, ps⟩ := r
      cases l with
      | cons => simp
      | nil =>
        cases e' : readTransitions ts with
        | error w => rw [e'] at a; simpa using a
        | ok r => simp

/-- an ordinary program is not misread -/
theorem program_fine {b : Bool} {w : List STok} (ho : OrdinaryAt b (wordsOf w)) {p : NodeProgram} (d : Derives .program w p) :
    readProgram p ≠ .error .misread := by
  obtain ⟨h1, h2, h3⟩ := d.ordinary ho List.infix_rfl
  have a1 := readAll_fine _ h1
  have a2 := readAll_fine _ h2
  have a3 := readTransitions_fine _ h3
  unfold readProgram
  cases e1 : readAll (typedOf p.contractDefinition.node.parameters.node.parameters) with
  | error w => rw [e1] at a1; simpa [e1] using a1
  | ok r1 =>
    cases e2 : readAll (fieldTypedOf p.contractDefinition.node.fields) with
    | error w => rw [e2] at a2; simpa [e1, e2] using a2
    | ok r2 =>
      cases e3 : readTransitions (transitionsOf p.contractDefinition.node.components) with
      | error w => rw [e3] at a3; simpa [e1, e2, e3] using a3
      | ok r3 => simp [e1, e2, e3]

end Verif
