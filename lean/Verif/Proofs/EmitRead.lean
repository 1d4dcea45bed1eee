import Verif.Proofs.EmitSem
import Verif.Spec.Interface
/-
The emitter against the specification of interfaces: on clean types it pushes exactly one type
definition that converts to the specified type; on panicking types it panics.
-/
namespace Verif

set_option linter.unusedSimpArgs false

/-! ### Conversion of simplified types -/

theorem convLast_eq : ∀ ts : List SrType,
    convLast ts = match (ts.map SrType.toTy).reverse with
      | [] => (none, none)
      | [a] => (some a, none)
      | a :: b :: _ => (some a, some b)
  | [] => rfl
  | [t] => rfl
  | t :: u :: ts => by
    have ih := convLast_eq (u :: ts)
    rw [convLast, ih]
    · simp only [List.map_cons, List.reverse_cons]
      cases hr : (ts.map SrType.toTy).reverse with
      | nil => simp
      | cons a l =>
        cases l with
        | nil => simp
        | cons b l => simp
    · simp

theorem foldl_digits_ge : ∀ (s : Str) (acc : Nat),
    acc ≤ s.foldl (fun n c => n * 10 + (c.toNat - 48)) acc
  | [], _ => Nat.le_refl _
  | c :: s, acc => by
    have := foldl_digits_ge s (acc * 10 + (c.toNat - 48))
    simp only [List.foldl_cons]
    omega

theorem parseDigits_eq : ∀ (s : Str) (acc : Nat), acc < 2 ^ 64 →
    parseDigits acc s =
      if s.all isDec ∧ s.foldl (fun n c => n * 10 + (c.toNat - 48)) acc < 2 ^ 64 then
        some (s.foldl (fun n c => n * 10 + (c.toNat - 48)) acc) else none
  | [], acc, h => by simp [parseDigits, h]
  | c :: s, acc, h => by
    rw [parseDigits]
    have hd : parseDigits.isDigitC c = isDec c := rfl
    rw [hd]
    cases hc : isDec c with
    | false => simp [hc]
    | true =>
      simp only [if_true, List.all_cons, hc, Bool.true_and, List.foldl_cons]
      split
      · rename_i hlt
        rw [parseDigits_eq s _ hlt]
      · rename_i hlt
        have := foldl_digits_ge s (acc * 10 + (c.toNat - 48))
        rw [if_neg]
        rintro ⟨_, h2⟩
        exact hlt (Nat.lt_of_le_of_lt this h2)

theorem parseUsize_eq (s : Str) (h : '+' ∉ s) :
    parseUsize s = if s ≠ [] ∧ s.all isDec ∧ digitsValue s < 2 ^ 64 then some (digitsValue s)
      else none := by
  cases s with
  | nil => simp [parseUsize]
  | cons c s =>
    have hc : c ≠ '+' := by intro e; apply h; simp [e]
    have : parseUsize (c :: s) = parseDigits 0 (c :: s) := by
      unfold parseUsize
      split
      · rename_i e; simp at e
      · rename_i e; simp only [List.cons.injEq] at e; exact absurd e.1 hc
      · rename_i e; simp only [List.cons.injEq] at e; exact absurd e.1 hc
      · rfl
    rw [this, parseDigits_eq _ _ (by decide)]
    simp [digitsValue]

theorem otherType_eq (m : Str) (h : '+' ∉ m) (h20 : m ≠ str! "ByStr20")
    (a : Option (Str × List Field)) : otherType m a = userType m := by
  unfold otherType
  rw [if_neg h20]
  by_cases hm : ∃ ds, m = 'B' :: 'y' :: 'S' :: 't' :: 'r' :: ds
  · obtain ⟨ds, rfl⟩ := hm
    have hp : '+' ∉ ds := by intro hh; apply h; simp [hh]
    simp only [stripByStr, Option.bind_some, parseUsize_eq ds hp, userType]
    by_cases hc : ds ≠ [] ∧ ds.all isDec = true ∧ digitsValue ds < 2 ^ 64
    · rw [if_pos hc, if_pos hc]
    · rw [if_neg hc, if_neg hc]
  · have h1 : stripByStr m = none := by
      unfold stripByStr
      split
      · exact absurd ⟨_, rfl⟩ hm
      · rfl
    have h2 : userType m = .other m := by
      unfold userType
      split
      · exact absurd ⟨_, rfl⟩ hm
      · rfl
    rw [h1, h2]
    rfl

theorem baseType_eq (n : Str) :
    baseType n = if n = str! "ByStr20" then none else builtinTypes.lookup n := by
  by_cases hn : n ∈ builtinTypes.map (·.1)
  · simp only [builtinTypes, List.map_cons, List.map_nil, List.mem_cons, List.not_mem_nil,
      or_false] at hn
    rcases hn with rfl | rfl | rfl | rfl | rfl | rfl | rfl | rfl | rfl | rfl | rfl | rfl | rfl <;> rfl
  · have h20 : n ≠ str! "ByStr20" := by rintro rfl; exact hn (by simp [builtinTypes])
    rw [if_neg h20]
    have h1 : builtinTypes.lookup n = none := by
      rw [List.lookup_eq_none_iff]
      intro p hp
      have hne : n ≠ p.1 := by
        rintro rfl
        exact hn (List.mem_map_of_mem hp)
      simpa using hne
    rw [h1]
    simp only [builtinTypes, List.map_cons, List.map_nil, List.mem_cons, List.not_mem_nil,
      or_false, not_or] at hn
    obtain ⟨a1, a2, a3, a4, a5, a6, a7, a8, a9, a10, a11, a12, _⟩ := hn
    simp only [baseType, if_neg a1, if_neg a2, if_neg a3, if_neg a4, if_neg a5, if_neg a6, if_neg a7,
      if_neg a8, if_neg a9, if_neg a10, if_neg a11, if_neg a12]

theorem lookup_reserved : builtinTypes.lookup (str! "Option") = none ∧
    builtinTypes.lookup (str! "List") = none ∧ builtinTypes.lookup (str! "Pair") = none ∧
    builtinTypes.lookup (str! "Map") = none ∧
    builtinTypes.lookup (str! "ByStr20") = some .byStr20 := ⟨rfl, rfl, rfl, rfl, rfl⟩

theorem toTy_named (n : Str) (subs : List SrType) (a : Option (Str × List Field))
    (h : '+' ∉ n) (ha : n = str! "ByStr20" → a = none) :
    (SrType.mk n subs a).toTy = namedType n (subs.map SrType.toTy) := by
  rw [SrType.toTy, namedType, convLast_eq, baseType_eq]
  by_cases h20 : n = str! "ByStr20"
  · rw [if_pos h20, ha h20]
    subst h20
    rfl
  · rw [if_neg h20]
    cases builtinTypes.lookup n with
    | some t => rfl
    | none =>
      simp only [otherType_eq n h h20]
      generalize (subs.map SrType.toTy).reverse = l
      cases l with
      | nil => rfl
      | cons x l =>
        cases l with
        | nil => cases x <;> rfl
        | cons y l => cases x <;> cases y <;> rfl

theorem toTy_address (n tag : Str) (fields : List Field) (h : '+' ∉ n) :
    (SrType.mk n [] (some (tag, fields))).toTy = addressType n tag fields := by
  rw [addressType]
  split
  · rename_i e; subst e; rfl
  · rename_i e
    exact toTy_named n [] _ h (fun h => absurd h e)

theorem toTy_ofName (n : Str) (h : '+' ∉ n) : (SrType.ofName n).toTy = namedType n [] :=
  toTy_named n [] none h (fun _ => rfl)

/-! ### Stack effect of type nodes -/

variable (dbg : StackObj → Str)

/-- the stack objects left behind by ignored namespaces -/
def leftovers (l : List Str) : List StackObj := l.map fun x => .ident x .unknown

theorem leftovers_append (a b : List Str) : leftovers (a ++ b) = leftovers a ++ leftovers b := by
  simp [leftovers]

/-- the computation pushes some leftovers and then one type definition, which converts to `o` -/
def Pushes (m : M SrState Unit) (l : List Str) (o : Option Ty) : Prop :=
  ∃ sr : SrType, sr.toTy = o ∧ ∀ s, m s = (⟨.typeDef sr :: (leftovers l ++ s.stack), s.contract⟩, .ok ())

def Panics {α : Type} (m : M SrState α) : Prop := ∀ s, (m s).2 = .panic

/-- the computation ends with an error -/
def Errs {α : Type} (m : M SrState α) : Prop := ∀ s, ∃ e, (m s).2 = .err e

/-- the computation has the problem -/
def Has {α : Type} (m : M SrState α) : Problem → Prop
  | .panics => Panics m
  | .fails => Errs m
  | .misread => True

def Agrees (m : M SrState Unit) : Reading → Prop
  | .clean l o => Pushes m l o
  | .bad w => Has m w

theorem Panics.bind {α β : Type} {m : M SrState α} (h : Panics m) (f : α → M SrState β) :
    Panics (m.bind f) := by
  intro s
  have := h s
  simp only [M.bind]
  cases hm : m s with
  | mk s1 r => rw [hm] at this; simp at this; subst this; rfl

theorem Errs.bind {α β : Type} {m : M SrState α} (h : Errs m) (f : α → M SrState β) :
    Errs (m.bind f) := by
  intro s
  obtain ⟨e, this⟩ := h s
  simp only [M.bind]
  cases hm : m s with
  | mk s1 r => rw [hm] at this; simp at this; subst this; exact ⟨e, rfl⟩

theorem Has.bind {α β : Type} {m : M SrState α} {w : Problem} (h : Has m w) (f : α → M SrState β) :
    Has (m.bind f) w := by
  cases w with
  | panics => exact Panics.bind h f
  | fails => exact Errs.bind h f
  | misread => trivial

theorem Panics.swallow {m : M SrState Unit} (h : Panics m) : Panics (swallow m) := by
  intro s
  have := h s
  simp only [Verif.swallow]
  cases hm : m s with
  | mk s1 r => rw [hm] at this; simp at this; subst this; rfl

/-- after an effect that never fails -/
theorem Has.after {α β : Type} {m : M SrState α} {f : α → M SrState β} {w : Problem}
    (hm : ∀ s, ∃ s1 a, m s = (s1, .ok a)) (h : ∀ a, Has (f a) w) : Has (m.bind f) w := by
  cases w with
  | panics =>
    intro s
    obtain ⟨s1, a, e⟩ := hm s
    simp only [M.bind, e]
    exact h a s1
  | fails =>
    intro s
    obtain ⟨s1, a, e⟩ := hm s
    simp only [M.bind, e]
    exact h a s1
  | misread => trivial

theorem Has.congr {α : Type} {m m' : M SrState α} {w : Problem} (h : ∀ s, m s = m' s)
    (h' : Has m' w) : Has m w := by
  cases w with
  | panics => intro s; rw [h]; exact h' s
  | fails => intro s; rw [h]; exact h' s
  | misread => trivial

theorem Pushes.total {m : M SrState Unit} {l : List Str} {o : Option Ty} (h : Pushes m l o) :
    ∀ s, ∃ s1 a, m s = (s1, .ok a) := by
  obtain ⟨sr, _, h⟩ := h
  exact fun s => ⟨_, _, h s⟩

theorem evTypeName_plain {n : NodeTypeNameIdentifier} {x : Str} (h : plainName n = some x) :
    '+' ∉ x ∧ evTypeName n = SrState.pushObj (.ident x .unknown) := by
  cases n with
  | byteStringType b =>
    simp only [plainName] at h
    split at h
    · simp at h
    · simp at h; subst h; exact ⟨by assumption, rfl⟩
  | eventType => simp [plainName] at h
  | typeOrEnumLikeIdentifier s =>
    simp only [plainName] at h
    split at h
    · simp at h
    · simp at h; subst h; exact ⟨by assumption, rfl⟩

theorem evMeta_plain {n : NodeMetaIdentifier} {l : List Str} {x : Str} (h : metaText n = some (l, x)) :
    '+' ∉ x ∧ ∀ s, evMeta n s = (⟨.ident x .unknown :: (leftovers l ++ s.stack), s.contract⟩, .ok ()) := by
  cases n with
  | metaName n =>
    simp only [metaText, Option.map_eq_some_iff, Prod.mk.injEq] at h
    obtain ⟨y, hy, rfl, rfl⟩ := h
    have := evTypeName_plain hy
    exact ⟨this.1, fun s => by rw [evMeta, this.2]; rfl⟩
  | metaNameInNamespace a b =>
    simp only [metaText] at h
    split at h
    · rename_i y z hy hz
      simp only [Option.some.injEq, Prod.mk.injEq] at h
      obtain ⟨rfl, rfl⟩ := h
      have h1 := evTypeName_plain hy
      have h2 := evTypeName_plain hz
      exact ⟨h2.1, fun s => by rw [evMeta, h1.2, h2.2]; rfl⟩
    · simp at h
  | metaNameInHexspace a n =>
    simp only [metaText, Option.map_eq_some_iff, Prod.mk.injEq] at h
    obtain ⟨y, hy, rfl, rfl⟩ := h
    have := evTypeName_plain hy
    exact ⟨this.1, fun s => by rw [evMeta, this.2]; rfl⟩
  | byteString =>
    simp only [metaText, Option.some.injEq, Prod.mk.injEq] at h
    obtain ⟨rfl, rfl⟩ := h
    exact ⟨by decide, fun s => rfl⟩

theorem evMeta_name {n : NodeMetaIdentifier} {l : List Str} {x : Str} (h : metaText n = some (l, x))
    (s : SrState) : ((evMeta n).bind fun _ => identToType dbg) s =
      (⟨.typeDef (SrType.ofName x) :: (leftovers l ++ s.stack), s.contract⟩, .ok ()) := by
  simp only [M.bind, (evMeta_plain h).2, identToType, popIdent, SrState.pushObj]

theorem readName_agrees (n : NodeMetaIdentifier) :
    Agrees ((evMeta n).bind fun _ => identToType dbg) (readName n) := by
  unfold readName
  cases h : metaText n with
  | none => trivial
  | some lx =>
    obtain ⟨l, x⟩ := lx
    exact ⟨SrType.ofName x, toTy_ofName x (evMeta_plain h).1, evMeta_name dbg h⟩

theorem makeMap_agrees {a b : M SrState Unit} {k v : Reading} (ha : Agrees a k)
    (hb : Agrees b v) : Agrees (a.bind fun _ => b.bind fun _ => makeMap dbg) (readMap k v) := by
  cases k with
  | bad w =>
    have : readMap (.bad w) v = .bad w := by cases v <;> rfl
    rw [this]
    exact Has.bind ha _
  | clean lk k =>
    have hat := Pushes.total ha
    cases v with
    | bad w =>
      have : readMap (.clean lk k) (.bad w) = .bad w := by cases k <;> rfl
      rw [this]
      exact Has.after hat (fun _ => Has.bind hb _)
    | clean lv v =>
      obtain ⟨sk, hk, ha⟩ := ha
      obtain ⟨sv, hv, hb⟩ := hb
      cases lv with
      | cons x lv =>
        have : readMap (.clean lk k) (.clean (x :: lv) v) = .bad .fails := by cases k <;> cases v <;> rfl
        rw [this]
        intro s
        simp only [M.bind, ha, hb, makeMap, popType, leftovers, List.map_cons, List.cons_append]
        exact ⟨_, rfl⟩
      | nil =>
        have hrun : ∀ s, (a.bind fun _ => b.bind fun _ => makeMap dbg) s =
            (⟨.typeDef (.mk (str! "Map") [sk, sv] none) :: (leftovers lk ++ s.stack), s.contract⟩, .ok ()) := by
          intro s
          simp only [M.bind, ha, hb, makeMap, popType, SrState.pushObj, leftovers, List.map_nil,
            List.nil_append]
        have hty : (SrType.mk (str! "Map") [sk, sv] none).toTy = namedType (str! "Map") [k, v] := by
          rw [toTy_named _ _ _ (by decide) (by simp)]
          simp only [List.map_cons, List.map_nil, hk, hv]
        cases k <;> cases v <;> exact ⟨_, hty, hrun⟩

theorem asKey_agrees {a : M SrState Unit} {r : Reading} (ha : Agrees a r) :
    Agrees (a.bind fun _ => identToType dbg) (asKey r) := by
  cases r with
  | bad w => exact Has.bind ha _
  | clean l o =>
    obtain ⟨sr, _, ha⟩ := ha
    intro s
    simp only [M.bind, ha, identToType, popIdent]
    exact ⟨_, rfl⟩

/-- agreement of an argument loop -/
def ArgsAgree (m : SrType → M SrState SrType) (rs : List Reading) : Prop :=
  ∀ (n : Str) (subs : List SrType) (left : List Str), '+' ∉ n →
    match applyName.go n rs left (subs.map SrType.toTy) with
    | .clean l o => ∃ (sr : SrType) (l' : List Str), l = l' ++ left ∧ sr.toTy = o ∧
        ∀ s, m (.mk n subs none) s = (⟨leftovers l' ++ s.stack, s.contract⟩, .ok sr)
    | .bad w => Has (m (.mk n subs none)) w

theorem argsAgree_nil : ArgsAgree (fun main => M.pure main) [] := by
  intro n subs left h
  exact ⟨_, [], rfl, toTy_named n subs none h (fun _ => rfl), fun s => rfl⟩

theorem argsAgree_cons {a : M SrState Unit} {r : Reading} {m : SrType → M SrState SrType}
    {rs : List Reading} (ha : Agrees a r) (hm : ArgsAgree m rs) :
    ArgsAgree (fun main => a.bind fun _ => (popType dbg).bind fun t => m (main.pushSubType t))
      (r :: rs) := by
  intro n subs left h
  cases r with
  | clean l o =>
    obtain ⟨sr, ho, ha⟩ := ha
    have := hm n (subs ++ [sr]) (l ++ left) h
    have hacc : (subs ++ [sr]).map SrType.toTy = subs.map SrType.toTy ++ [o] := by
      rw [List.map_append, List.map_cons, List.map_nil, ho]
    rw [hacc] at this
    have hrun : ∀ s, (a.bind fun _ => (popType dbg).bind fun t =>
        m ((SrType.mk n subs none).pushSubType t)) s =
        m (.mk n (subs ++ [sr]) none) ⟨leftovers l ++ s.stack, s.contract⟩ := by
      intro s
      simp only [M.bind, ha, popType, SrType.pushSubType]
    rw [applyName.go]
    revert this
    cases applyName.go n rs (l ++ left) (subs.map SrType.toTy ++ [o]) with
    | clean l2 o' =>
      rintro ⟨sr', l', e, h1, h2⟩
      refine ⟨sr', l' ++ l, by simp [e], h1, fun s => (hrun s).trans ?_⟩
      rw [h2]
      simp [leftovers_append]
    | bad w =>
      intro h2
      cases w with
      | panics => exact fun s => (congrArg Prod.snd (hrun s)).trans (h2 _)
      | fails =>
        intro s
        obtain ⟨e, h2⟩ := h2 ⟨leftovers l ++ s.stack, s.contract⟩
        exact ⟨e, (congrArg Prod.snd (hrun s)).trans h2⟩
      | misread => trivial
  | bad w => exact Has.bind ha _

theorem applyName_agrees {n : NodeMetaIdentifier} {rs : List Reading}
    {m : SrType → M SrState SrType} (hm : ArgsAgree m rs) :
    Agrees ((evMeta n).bind fun _ => (identToType dbg).bind fun _ => (popType dbg).bind fun main =>
      (m main).bind fun t => SrState.pushObj (.typeDef t)) (applyName n rs) := by
  unfold applyName
  cases h : metaText n with
  | none => trivial
  | some lx =>
    obtain ⟨l, x⟩ := lx
    have := hm x [] l (evMeta_plain h).1
    simp only [List.map_nil] at this
    have hrun : ∀ s, ((evMeta n).bind fun _ => (identToType dbg).bind fun _ =>
        (popType dbg).bind fun main => (m main).bind fun t => SrState.pushObj (.typeDef t)) s =
        ((m (.mk x [] none)).bind fun t => SrState.pushObj (.typeDef t))
          ⟨leftovers l ++ s.stack, s.contract⟩ := by
      intro s
      simp only [M.bind, (evMeta_plain h).2, identToType, popIdent, SrState.pushObj, popType, SrType.ofName]
    revert this
    simp only
    cases applyName.go x rs l [] with
    | clean l2 o =>
      rintro ⟨sr, l', e, h1, h2⟩
      refine ⟨sr, h1, fun s => ?_⟩
      rw [hrun]
      simp only [M.bind, h2]
      simp [SrState.pushObj, e, leftovers_append]
    | bad w =>
      intro h2
      have h3 := Has.bind h2 (fun t => SrState.pushObj (.typeDef t))
      cases w with
      | panics => intro s; rw [hrun]; exact h3 _
      | fails => intro s; rw [hrun]; exact h3 _
      | misread => trivial

def FieldsAgree (m : M SrState (List Field)) : Except Problem (List Str × List Field) → Prop
  | .ok (left, l) => ∀ s, m s = (⟨leftovers left ++ s.stack, s.contract⟩, .ok l)
  | .error .panics => Panics m
  | .error .misread => True
  | .error .fails => False

theorem address_agrees (i : NodeTypeNameIdentifier) (tag : Str) {m : M SrState (List Field)}
    {r : Except Problem (List Str × List Field)} (hm : FieldsAgree m r) :
    Agrees (swallow <| (evTypeName i).bind fun _ => (identToType dbg).bind fun _ =>
      (popType dbg).bind fun main => m.bind fun fields =>
        SrState.pushObj (.typeDef (main.setAddress (tag, fields))))
      (match (generalizing := false) plainName i, r with
        | some n, .ok (left, fields) => .clean left (addressType n tag fields)
        | some _, .error w => .bad w
        | none, _ => .bad .misread) := by
  cases h : plainName i with
  | none => trivial
  | some x =>
    obtain ⟨hx, he⟩ := evTypeName_plain h
    have hrun : ∀ s, ((evTypeName i).bind fun _ => (identToType dbg).bind fun _ =>
        (popType dbg).bind fun main => m.bind fun fields =>
        SrState.pushObj (.typeDef (main.setAddress (tag, fields)))) s =
        (m.bind fun fields => SrState.pushObj (.typeDef (.mk x [] (some (tag, fields))))) s := by
      intro s
      rw [he]
      rfl
    cases r with
    | ok l =>
      obtain ⟨left, l⟩ := l
      refine ⟨.mk x [] (some (tag, l)), toTy_address x tag l hx, fun s => ?_⟩
      simp only [swallow, hrun]
      simp only [M.bind, show m s = (⟨leftovers left ++ s.stack, s.contract⟩, .ok l) from hm s]
      rfl
    | error r =>
      cases r with
      | fails => exact hm.elim
      | panics =>
        refine Panics.swallow fun s => ?_
        rw [hrun]
        exact Panics.bind hm _ s
      | misread => trivial

theorem typed_run {a : M SrState Unit} {left : List Str} {o : Option Ty} (h : Pushes a left o) (x : Str)
    (s : SrState) :
    (a.bind fun _ => (popType dbg).bind fun ty => (intoType ty).bind fun ty =>
      SrState.pushObj (.varDecl (.mk x ty))) s =
      match o with
      | some t => (⟨.varDecl (.mk x t) :: (leftovers left ++ s.stack), s.contract⟩, .ok ())
      | none => (⟨leftovers left ++ s.stack, s.contract⟩, .panic) := by
  obtain ⟨sr, ho, h⟩ := h
  simp only [M.bind, h, popType, intoType, ho]
  cases o <;> rfl

mutual
theorem evKeyW_read : ∀ w : W NodeTypeMapKey, Agrees (evKeyW dbg w) (readKeyW w)
  | ⟨n, _, _⟩ => by
    cases n with
    | genericMapKey m => simp only [evKeyW, evKey, readKeyW, readKey]; exact readName_agrees dbg _
    | enclosedGenericId m =>
      simp only [evKeyW, evKey, readKeyW, readKey]; exact readName_agrees dbg _
    | enclosedAddressMapKeyType a =>
      simp only [evKeyW, evKey, readKeyW, readKey]; exact asKey_agrees dbg (evAddrW_read a)
    | addressMapKeyType a =>
      simp only [evKeyW, evKey, readKeyW, readKey]; exact asKey_agrees dbg (evAddrW_read a)
theorem evValueW_read : ∀ w : W NodeTypeMapValue, Agrees (evValueW dbg w) (readValueW w)
  | ⟨n, _, _⟩ => by
    cases n with
    | mapValueTypeOrEnumLikeIdentifier m =>
      simp only [evValueW, evValue, readValueW, readValue]; exact readName_agrees dbg _
    | mapKeyValue e =>
      obtain ⟨⟨k, v⟩, _, _⟩ := e
      simp only [evValueW, evValue, readValueW, readValue, evEntryW, evEntry, readEntryW, readEntry,
        M.bind_assoc]
      exact makeMap_agrees dbg (evKeyW_read k) (evValueW_read v)
    | mapValueParenthesizedType t =>
      simp only [evValueW, evValue, readValueW, readValue]; exact evMvW_read t
    | mapValueAddressType a =>
      simp only [evValueW, evValue, readValueW, readValue]; exact evAddrW_read a
theorem evArgW_read : ∀ w : W NodeTypeArgument, Agrees (evArgW dbg w) (readArgW w)
  | ⟨n, _, _⟩ => by
    cases n with
    | enclosedTypeArgument t => simp only [evArgW, evArg, readArgW, readArg]; exact evTypeW_read t
    | genericTypeArgument m =>
      simp only [evArgW, evArg, readArgW, readArg]; exact readName_agrees dbg _
    | templateTypeArgument x => simp only [evArgW, evArg, readArgW, readArg]; exact fun s => rfl
    | addressTypeArgument a => simp only [evArgW, evArg, readArgW, readArg]; exact evAddrW_read a
    | mapTypeArgument k v =>
      simp only [evArgW, evArg, readArgW, readArg]
      exact makeMap_agrees dbg (evKeyW_read k) (evValueW_read v)
theorem evTypeW_read : ∀ w : W NodeScillaType, Agrees (evTypeW dbg w) (readTypeW w)
  | ⟨n, _, _⟩ => by
    cases n with
    | genericTypeWithArgs m args =>
      cases args with
      | nil =>
        simp only [evTypeW, evType, readTypeW, readType, readArgs]
        have := readName_agrees dbg m.node
        unfold readName at this
        unfold applyName
        revert this
        cases metaText m.node <;> exact id
      | cons a args =>
        simp only [evTypeW, evType, readTypeW, readType]
        exact applyName_agrees dbg (evArgs_read (a :: args))
    | mapType k v =>
      simp only [evTypeW, evType, readTypeW, readType]
      exact makeMap_agrees dbg (evKeyW_read k) (evValueW_read v)
    | functionType a b => simp only [evTypeW, evType, readTypeW, readType]; exact fun s => rfl
    | enclosedType t => simp only [evTypeW, evType, readTypeW, readType]; exact evTypeW_read t
    | scillaAddresseType a => simp only [evTypeW, evType, readTypeW, readType]; exact evAddrW_read a
    | polyFunctionType x t => simp only [evTypeW, evType, readTypeW, readType]; exact fun s => rfl
    | typeVarType x => simp only [evTypeW, evType, readTypeW, readType]; exact fun s => rfl
theorem evAddrW_read : ∀ w : W NodeAddressType, Agrees (evAddrW dbg w) (readAddrW w)
  | ⟨.mk i tag fs, _, _⟩ => by
    simp only [evAddrW, evAddr, readAddrW, readAddr]
    exact address_agrees dbg i.node tag.node (evFields_read fs)
theorem evMvaW_read : ∀ w : W NodeTypeMapValueArguments, Agrees (evMvaW dbg w) (readMvaW w)
  | ⟨n, _, _⟩ => by
    cases n with
    | enclosedTypeMapValue t => simp only [evMvaW, evMva, readMvaW, readMva]; exact evMvW_read t
    | genericMapValueArgument m =>
      simp only [evMvaW, evMva, readMvaW, readMva]; exact readName_agrees dbg _
    | mapKeyValueType k v => simp only [evMvaW, evMva, readMvaW, readMva]; exact fun s => rfl
theorem evMvW_read : ∀ w : W NodeTypeMapValueAllowingTypeArguments,
    Agrees (evMvW dbg w) (readMvW w)
  | ⟨n, _, _⟩ => by
    cases n with
    | typeMapValueNoArgs v => simp only [evMvW, evMv, readMvW, readMv]; exact evValueW_read v
    | typeMapValueWithArgs m args =>
      cases args with
      | nil =>
        simp only [evMvW, evMv, readMvW, readMv, readMvas]
        have := readName_agrees dbg m.node
        unfold readName at this
        unfold applyName
        revert this
        cases metaText m.node <;> exact id
      | cons a args =>
        simp only [evMvW, evMv, readMvW, readMv]
        exact applyName_agrees dbg (evMvas_read (a :: args))
theorem evArgs_read : ∀ l : List (W NodeTypeArgument), ArgsAgree (evArgs dbg l) (readArgs l)
  | [] => by
    have : evArgs dbg [] = fun main => M.pure main := by funext main; rw [evArgs]
    rw [this, readArgs]
    exact argsAgree_nil
  | a :: as => by
    have : evArgs dbg (a :: as) = fun main => (evArgW dbg a).bind fun _ =>
        (popType dbg).bind fun t => evArgs dbg as (main.pushSubType t) := by
      funext main; rw [evArgs]
    rw [this, readArgs]
    exact argsAgree_cons dbg (evArgW_read a) (evArgs_read as)
theorem evMvas_read : ∀ l : List (W NodeTypeMapValueArguments),
    ArgsAgree (evMvas dbg l) (readMvas l)
  | [] => by
    have : evMvas dbg [] = fun main => M.pure main := by funext main; rw [evMvas]
    rw [this, readMvas]
    exact argsAgree_nil
  | a :: as => by
    have : evMvas dbg (a :: as) = fun main => (evMvaW dbg a).bind fun _ =>
        (popType dbg).bind fun t => evMvas dbg as (main.pushSubType t) := by
      funext main; rw [evMvas]
    rw [this, readMvas]
    exact argsAgree_cons dbg (evMvaW_read a) (evMvas_read as)
theorem evFields_read : ∀ l : List (W NodeAddressTypeField),
    FieldsAgree (evFields dbg l) (readFields l)
  | [] => by
    rw [evFields, readFields]
    exact fun s => rfl
  | ⟨.mk ⟨.variableName x, _, _⟩ t, _, _⟩ :: fs => by
    have ht := evTypeW_read t
    have hfs := evFields_read fs
    rw [evFields, readFields]
    simp only [evFieldW, evField]
    revert ht hfs
    cases readTypeW t with
    | clean left o =>
      cases o with
      | some ty =>
        intro ht hfs
        have hrun : ∀ s, ((evTypeW dbg t).bind fun _ => (popType dbg).bind fun ty =>
            (intoType ty).bind fun ty => SrState.pushObj (.varDecl (.mk x.node ty))) s =
            (⟨.varDecl (.mk x.node ty) :: (leftovers left ++ s.stack), s.contract⟩, .ok ()) := fun s => by
          rw [typed_run dbg ht]
        revert hfs
        simp only
        cases readFields fs with
        | ok l =>
          obtain ⟨left', l⟩ := l
          intro hfs s
          have h2 : ∀ s, evFields dbg fs s = (⟨leftovers left' ++ s.stack, s.contract⟩, .ok l) := hfs
          rw [M.bind, hrun]
          simp only [M.bind, popVar, h2, M.pure, leftovers_append, List.append_assoc]
        | error r =>
          cases r with
          | fails => exact id
          | panics =>
            intro hfs s
            rw [M.bind, hrun]
            simp only
            exact Panics.bind hfs _ _
          | misread => exact id
      | none =>
        intro ht hfs s
        rw [M.bind, typed_run dbg ht]
    | bad w =>
      intro ht hfs
      cases w with
      | panics => exact Panics.bind (Panics.bind ht _) _
      | fails => trivial
      | misread => trivial
  | ⟨.mk ⟨.specialIdentifier x, _, _⟩ t, _, _⟩ :: fs => by
    rw [readFields]
    · trivial
    · simp
  | ⟨.mk ⟨.variableInNamespace x y, _, _⟩ t, _, _⟩ :: fs => by
    rw [readFields]
    · trivial
    · simp
end

end Verif
