import Verif.Proofs.EmitRead
/-
C30, C31: the conversion of simplified types to public types (`From<SrType> for Type`).
-/
namespace Verif

/-! ## C30 — exactly when the conversion panics -/

/-- how many arguments the conversion takes (from the end of the argument list) -/
def arity (name : Str) : Nat :=
  if name = str! "Option" ∨ name = str! "List" then 1
  else if name = str! "Pair" ∨ name = str! "Map" then 2
  else 0

/-- A simplified type that has all the arguments the conversion asks for, recursively in those
arguments. -/
inductive Convertible : SrType → Prop
  | mk (name : Str) (ignored used : List SrType) (a : Option (Str × List Field)) :
      used.length = arity name → (∀ t ∈ used, Convertible t) →
      Convertible (.mk name (ignored ++ used) a)

theorem baseType_arity {m : Str} {t : Ty} (h : baseType m = some t) : arity m = 0 := by
  rw [baseType_eq] at h
  split at h
  · simp at h
  · obtain ⟨l1, l2, hl, _⟩ := List.lookup_eq_some_iff.mp h
    have : m ∈ builtinTypes.map (·.1) := by rw [hl]; simp
    simp only [builtinTypes, List.map_cons, List.map_nil, List.mem_cons, List.not_mem_nil,
      or_false] at this
    rcases this with rfl | rfl | rfl | rfl | rfl | rfl | rfl | rfl | rfl | rfl | rfl | rfl | rfl <;>
      decide

/-- C30 (the conversion as a recursion over the arguments it uses). -/
theorem toTy_eq (m : Str) (ts : List SrType) (a : Option (Str × List Field)) :
    (SrType.mk m ts a).toTy =
      match baseType m with
      | some t => some t
      | none =>
        if m = str! "Option" then
          match ts.reverse with
          | x :: _ => x.toTy.map .option
          | _ => none
        else if m = str! "List" then
          match ts.reverse with
          | x :: _ => x.toTy.map .list
          | _ => none
        else if m = str! "Pair" then
          match ts.reverse with
          | y :: x :: _ => x.toTy.bind fun x => y.toTy.map fun y => .pair x y
          | _ => none
        else if m = str! "Map" then
          match ts.reverse with
          | y :: x :: _ => x.toTy.bind fun x => y.toTy.map fun y => .map x y
          | _ => none
        else some (otherType m a) := by
  rw [SrType.toTy, convLast_eq, ← List.map_reverse]
  cases baseType m with
  | some t => rfl
  | none =>
    simp only
    generalize ts.reverse = l
    cases l with
    | nil => rfl
    | cons x l =>
      cases l with
      | nil => simp only [List.map_cons, List.map_nil]; cases x.toTy <;> rfl
      | cons y l =>
        simp only [List.map_cons]
        cases x.toTy <;> cases y.toTy <;> rfl

theorem Convertible.intro1 {m : Str} {ts l : List SrType} {x : SrType} {a : Option (Str × List Field)}
    (ha : arity m = 1) (e : ts.reverse = x :: l) (h : Convertible x) : Convertible (.mk m ts a) := by
  have : ts = l.reverse ++ [x] := by
    have := congrArg List.reverse e
    simpa using this
  rw [this]
  exact .mk _ _ [x] _ (by simp [ha]) (by simpa using h)

theorem Convertible.intro2 {m : Str} {ts l : List SrType} {x y : SrType}
    {a : Option (Str × List Field)} (ha : arity m = 2) (e : ts.reverse = y :: x :: l)
    (hx : Convertible x) (hy : Convertible y) : Convertible (.mk m ts a) := by
  have : ts = l.reverse ++ [x, y] := by
    have := congrArg List.reverse e
    simpa using this
  rw [this]
  refine .mk _ _ [x, y] _ (by simp [ha]) ?_
  intro t ht
  simp only [List.mem_cons, List.not_mem_nil, or_false] at ht
  rcases ht with rfl | rfl <;> assumption

theorem mem_size {t : SrType} {ts : List SrType} (h : t ∈ ts) : sizeOf t < 1 + sizeOf ts := by
  have := List.sizeOf_lt_of_mem h
  omega

theorem convertible_of_toTy : ∀ (n : Nat) (s : SrType), sizeOf s ≤ n → ∀ t, s.toTy = some t →
    Convertible s
  | 0, .mk m ts a, hn, _, _ => by simp at hn
  | n + 1, .mk m ts a, hn, t, h => by
    have hsub : ∀ x ∈ ts, sizeOf x ≤ n := by
      intro x hx
      have := mem_size hx
      simp only [SrType.mk.sizeOf_spec] at hn
      omega
    have hrev : ∀ {x : SrType} {l}, ts.reverse = l → x ∈ l → x ∈ ts := by
      intro x l e hx
      rw [← e] at hx
      simpa using hx
    have hzero : arity m = 0 → Convertible (.mk m ts a) := by
      intro h0
      have := Convertible.mk m ts [] a (by simp [h0]) (by simp)
      simpa using this
    rw [toTy_eq] at h
    cases hb : baseType m with
    | some t' => exact hzero (baseType_arity hb)
    | none =>
      rw [hb] at h
      simp only at h
      by_cases h1 : m = str! "Option"
      · rw [if_pos h1] at h
        cases hr : ts.reverse with
        | nil => rw [hr] at h; simp at h
        | cons x l =>
          rw [hr] at h
          simp only [Option.map_eq_some_iff] at h
          obtain ⟨u, hu, _⟩ := h
          exact .intro1 (by rw [h1]; decide) hr
            (convertible_of_toTy n x (hsub x (hrev hr (by simp))) u hu)
      rw [if_neg h1] at h
      by_cases h2 : m = str! "List"
      · rw [if_pos h2] at h
        cases hr : ts.reverse with
        | nil => rw [hr] at h; simp at h
        | cons x l =>
          rw [hr] at h
          simp only [Option.map_eq_some_iff] at h
          obtain ⟨u, hu, _⟩ := h
          exact .intro1 (by rw [h2]; decide) hr
            (convertible_of_toTy n x (hsub x (hrev hr (by simp))) u hu)
      rw [if_neg h2] at h
      by_cases h3 : m = str! "Pair" ∨ m = str! "Map"
      · have ha : arity m = 2 := by rcases h3 with h3 | h3 <;> rw [h3] <;> decide
        have key : ∃ y x l u v, ts.reverse = y :: x :: l ∧ x.toTy = some u ∧ y.toTy = some v := by
          have : ∀ f : Ty → Ty → Ty, (match ts.reverse with
              | y :: x :: _ => x.toTy.bind fun x => y.toTy.map fun y => f x y
              | _ => none) = some t →
              ∃ y x l u v, ts.reverse = y :: x :: l ∧ x.toTy = some u ∧ y.toTy = some v := by
            intro f h
            cases hr : ts.reverse with
            | nil => rw [hr] at h; simp at h
            | cons y l =>
              cases l with
              | nil => rw [hr] at h; simp at h
              | cons x l =>
                rw [hr] at h
                simp only [Option.bind_eq_some_iff, Option.map_eq_some_iff] at h
                obtain ⟨u, hu, v, hv, _⟩ := h
                exact ⟨y, x, l, u, v, rfl, hu, hv⟩
          rcases h3 with h3 | h3
          · rw [if_pos h3] at h; exact this _ h
          · rw [if_neg (by rw [h3]; decide), if_pos h3] at h; exact this _ h
        obtain ⟨y, x, l, u, v, hr, hu, hv⟩ := key
        exact .intro2 ha hr (convertible_of_toTy n x (hsub x (hrev hr (by simp))) u hu)
          (convertible_of_toTy n y (hsub y (hrev hr (by simp))) v hv)
      · simp only [not_or] at h3
        apply hzero
        simp [arity, h1, h2, h3]

theorem length_two {α : Type} {l : List α} (h : l.length = 2) : ∃ x y, l = [x, y] := by
  match l, h with
  | [x, y], _ => exact ⟨x, y, rfl⟩

theorem toTy_of_convertible {s : SrType} (h : Convertible s) : ∃ t, s.toTy = some t := by
  induction h with
  | mk m ig us a hl hu ih =>
    rw [toTy_eq]
    cases baseType m with
    | some t => exact ⟨t, rfl⟩
    | none =>
      simp only
      by_cases h1 : m = str! "Option"
      · rw [if_pos h1]
        have : us.length = 1 := by rw [hl, h1]; decide
        obtain ⟨x, rfl⟩ := List.length_eq_one_iff.mp this
        obtain ⟨t, ht⟩ := ih x (by simp)
        exact ⟨.option t, by simp [ht]⟩
      rw [if_neg h1]
      by_cases h2 : m = str! "List"
      · rw [if_pos h2]
        have : us.length = 1 := by rw [hl, h2]; decide
        obtain ⟨x, rfl⟩ := List.length_eq_one_iff.mp this
        obtain ⟨t, ht⟩ := ih x (by simp)
        exact ⟨.list t, by simp [ht]⟩
      rw [if_neg h2]
      by_cases h3 : m = str! "Pair"
      · rw [if_pos h3]
        have : us.length = 2 := by rw [hl, h3]; decide
        obtain ⟨x, y, rfl⟩ := length_two this
        obtain ⟨t, ht⟩ := ih x (by simp)
        obtain ⟨u, hu⟩ := ih y (by simp)
        exact ⟨.pair t u, by simp [ht, hu]⟩
      rw [if_neg h3]
      by_cases h4 : m = str! "Map"
      · rw [if_pos h4]
        have : us.length = 2 := by rw [hl, h4]; decide
        obtain ⟨x, y, rfl⟩ := length_two this
        obtain ⟨t, ht⟩ := ih x (by simp)
        obtain ⟨u, hu⟩ := ih y (by simp)
        exact ⟨.map t u, by simp [ht, hu]⟩
      rw [if_neg h4]
      exact ⟨_, rfl⟩

/-- C30: the conversion of a simplified type does not panic iff every `Option`, `List`, `Pair`, `Map`
that is looked at has enough arguments. -/
theorem C30_panics_iff (s : SrType) : s.toTy = none ↔ ¬ Convertible s := by
  constructor
  · intro h hc
    obtain ⟨t, ht⟩ := toTy_of_convertible hc
    rw [h] at ht
    simp at ht
  · intro h
    cases hs : s.toTy with
    | none => rfl
    | some t => exact absurd (convertible_of_toTy _ s (Nat.le_refl _) t hs) h

example : Convertible (.mk (str! "Map") [.ofName (str! "ByStr20"),
    .mk (str! "Option") [.ofName (str! "Junk"), .ofName (str! "Uint32")] none] none) := by
  refine .mk _ [] [_, _] _ rfl ?_
  intro t ht
  simp only [List.mem_cons, List.not_mem_nil, or_false] at ht
  rcases ht with rfl | rfl
  · exact .mk _ [] [] _ rfl (by simp)
  · refine .mk _ [.ofName (str! "Junk")] [_] _ rfl ?_
    intro t ht
    simp only [List.mem_cons, List.not_mem_nil, or_false] at ht
    subst ht
    exact .mk _ [] [] _ rfl (by simp)

example : ¬ Convertible (.mk (str! "List") [.mk (str! "Pair") [.ofName (str! "Bool")] none] none) :=
  (C30_panics_iff _).mp (by decide +kernel)

/-! ## C31 — what the conversion means -/

/-- the names with a meaning of their own -/
def reservedNames : List Str :=
  builtinTypes.map (·.1) ++ [str! "Option", str! "List", str! "Pair", str! "Map"]

/-- `ByStr<n>` for a number that fits 64 bits (a `+` before the number is tolerated) -/
def ByStrName (s : Str) (n : Nat) : Prop :=
  ∃ ds, (s = str! "ByStr" ++ ds ∨ s = str! "ByStr+" ++ ds) ∧ ds ≠ [] ∧ (∀ c ∈ ds, isDec c = true) ∧
    digitsValue ds = n ∧ n < 2 ^ 64

/-- The types the conversion can produce. -/
inductive Denotable : Ty → Prop
  | builtin (name : Str) (t : Ty) : (name, t) ∈ builtinTypes → Denotable t
  | byStrX (n : Nat) : n < 2 ^ 64 → Denotable (.byStrX n)
  | address (tag : Str) (fs : List Field) : Denotable (.byStr20With tag fs)
  | option (t : Ty) : Denotable t → Denotable (.option t)
  | list (t : Ty) : Denotable t → Denotable (.list t)
  | pair (a b : Ty) : Denotable a → Denotable b → Denotable (.pair a b)
  | map (k v : Ty) : Denotable k → Denotable v → Denotable (.map k v)
  | other (s : Str) : s ∉ reservedNames → (∀ n, ¬ ByStrName s n) → Denotable (.other s)

theorem parseUsize_iff (s : Str) (n : Nat) : parseUsize s = some n ↔
    ∃ ds, (s = ds ∨ s = '+' :: ds) ∧ ds ≠ [] ∧ (∀ c ∈ ds, isDec c = true) ∧ digitsValue ds = n ∧
      n < 2 ^ 64 := by
  have hd : ∀ ds : Str, ds ≠ [] → (parseDigits 0 ds = some n ↔
      (∀ c ∈ ds, isDec c = true) ∧ digitsValue ds = n ∧ n < 2 ^ 64) := by
    intro ds _
    rw [parseDigits_eq _ _ (by decide)]
    simp only [digitsValue]
    constructor
    · intro h
      split at h
      · rename_i hc
        simp only [Option.some.injEq] at h
        exact ⟨List.all_eq_true.mp hc.1, h, h ▸ hc.2⟩
      · simp at h
    · rintro ⟨h1, h2, h3⟩
      rw [if_pos ⟨List.all_eq_true.mpr h1, h2 ▸ h3⟩, h2]
  have hplus : isDec '+' = false := by decide
  match s with
  | [] =>
    simp only [parseUsize]
    constructor
    · intro h; simp at h
    · rintro ⟨ds, h | h, h1, _⟩
      · exact absurd h.symm h1
      · simp at h
  | ['+'] =>
    simp only [parseUsize]
    constructor
    · intro h; simp at h
    · rintro ⟨ds, h | h, h1, h2, _⟩
      · rw [← h] at h2
        have := h2 '+' (by simp)
        rw [hplus] at this; simp at this
      · simp only [List.cons.injEq, true_and] at h
        exact absurd h.symm h1
  | '+' :: d :: ds =>
    simp only [parseUsize]
    rw [hd _ (by simp)]
    constructor
    · rintro ⟨h1, h2, h3⟩
      exact ⟨d :: ds, .inr rfl, by simp, h1, h2, h3⟩
    · rintro ⟨es, h | h, h1, h2, h3⟩
      · rw [← h] at h2
        have := h2 '+' (by simp)
        rw [hplus] at this; simp at this
      · simp only [List.cons.injEq, true_and] at h
        rw [h]; exact ⟨h2, h3⟩
  | c :: s =>
    by_cases hc : c = '+'
    · subst hc
      cases s with
      | nil =>
        simp only [parseUsize]
        constructor
        · intro h; simp at h
        · rintro ⟨ds, h | h, h1, h2, _⟩
          · rw [← h] at h2
            have := h2 '+' (by simp)
            rw [hplus] at this; simp at this
          · simp only [List.cons.injEq, true_and] at h
            exact absurd h.symm h1
      | cons d ds =>
        simp only [parseUsize]
        rw [hd _ (by simp)]
        constructor
        · rintro ⟨h1, h2, h3⟩
          exact ⟨d :: ds, .inr rfl, by simp, h1, h2, h3⟩
        · rintro ⟨es, h | h, h1, h2, h3⟩
          · rw [← h] at h2
            have := h2 '+' (by simp)
            rw [hplus] at this; simp at this
          · simp only [List.cons.injEq, true_and] at h
            rw [h]; exact ⟨h2, h3⟩
    · have : parseUsize (c :: s) = parseDigits 0 (c :: s) := by
        unfold parseUsize
        split
        · rename_i e; simp at e
        · rename_i e; simp only [List.cons.injEq] at e; exact absurd e.1 hc
        · rename_i e; simp only [List.cons.injEq] at e; exact absurd e.1 hc
        · rfl
      rw [this, hd _ (by simp)]
      constructor
      · rintro ⟨h1, h2, h3⟩
        exact ⟨_, .inl rfl, by simp, h1, h2, h3⟩
      · rintro ⟨es, h | h, h1, h2, h3⟩
        · rw [h]; exact ⟨h2, h3⟩
        · simp only [List.cons.injEq] at h; exact absurd h.1 hc

theorem byStrName_iff (s : Str) (n : Nat) :
    (stripByStr s).bind parseUsize = some n ↔ ByStrName s n := by
  by_cases hm : ∃ ds, s = 'B' :: 'y' :: 'S' :: 't' :: 'r' :: ds
  · obtain ⟨r, rfl⟩ := hm
    simp only [stripByStr, Option.bind_some, parseUsize_iff, ByStrName]
    constructor
    · rintro ⟨ds, h | h, h1⟩
      · exact ⟨ds, .inl (by rw [h]; rfl), h1⟩
      · exact ⟨ds, .inr (by rw [h]; rfl), h1⟩
    · rintro ⟨ds, h | h, h1⟩
      · exact ⟨ds, .inl (by simpa using h), h1⟩
      · exact ⟨ds, .inr (by simpa using h), h1⟩
  · have h1 : stripByStr s = none := by
      unfold stripByStr
      split
      · exact absurd ⟨_, rfl⟩ hm
      · rfl
    rw [h1]
    constructor
    · intro h; simp at h
    · rintro ⟨ds, h | h, _⟩
      · exact absurd ⟨ds, h⟩ hm
      · exact absurd ⟨'+' :: ds, h⟩ hm

theorem baseType_some {m : Str} {t : Ty} (h : baseType m = some t) : (m, t) ∈ builtinTypes := by
  rw [baseType_eq] at h
  split at h
  · simp at h
  · obtain ⟨l1, l2, hl, _⟩ := List.lookup_eq_some_iff.mp h
    rw [hl]
    simp

theorem builtin_toTy {m : Str} {t : Ty} (h : (m, t) ∈ builtinTypes) :
    (SrType.ofName m).toTy = some t := by
  simp only [builtinTypes, List.mem_cons, List.not_mem_nil, or_false, Prod.mk.injEq] at h
  rcases h with ⟨rfl, rfl⟩ | ⟨rfl, rfl⟩ | ⟨rfl, rfl⟩ | ⟨rfl, rfl⟩ | ⟨rfl, rfl⟩ | ⟨rfl, rfl⟩ |
    ⟨rfl, rfl⟩ | ⟨rfl, rfl⟩ | ⟨rfl, rfl⟩ | ⟨rfl, rfl⟩ | ⟨rfl, rfl⟩ | ⟨rfl, rfl⟩ | ⟨rfl, rfl⟩ <;> rfl

theorem baseType_none {m : Str} (h : m ∉ builtinTypes.map (·.1)) : baseType m = none := by
  cases hb : baseType m with
  | none => rfl
  | some t => exact absurd (List.mem_map_of_mem (f := (·.1)) (baseType_some hb)) h

theorem natDigits_value (n : Nat) : natDigits n ≠ [] ∧ (∀ c ∈ natDigits n, isDec c = true) ∧
    digitsValue (natDigits n) = n := by
  refine ⟨?_, ?_, ?_⟩
  · unfold natDigits
    exact Nat.toDigits_ne_nil
  · intro c hc
    have := Nat.isDigit_of_mem_toDigits (by decide : 0 < 10) (by decide : 10 ≤ 10) hc
    simp only [Char.isDigit, Bool.and_eq_true, decide_eq_true_eq] at this
    simp only [isDec, Bool.and_eq_true, decide_eq_true_eq]
    exact this
  · unfold natDigits digitsValue
    have := @Nat.ofDigitChars_ten_toDigits n
    simp only [Nat.ofDigitChars] at this
    have e : (fun (n : Nat) (c : Char) => n * 10 + (c.toNat - 48)) =
        fun sofar c => 10 * sofar + (c.toNat - '0'.toNat) := by
      funext a b
      rw [Nat.mul_comm]
      rfl
    rw [e]
    exact this

theorem denotable_of_toTy {s : SrType} {t : Ty} (h : s.toTy = some t) : Denotable t := by
  have hc := convertible_of_toTy _ s (Nat.le_refl _) t h
  induction hc generalizing t with
  | mk m ig us a hl hu ih =>
    rw [toTy_eq] at h
    cases hb : baseType m with
    | some t' =>
      rw [hb] at h
      simp only [Option.some.injEq] at h
      subst h
      exact .builtin m _ (baseType_some hb)
    | none =>
      rw [hb] at h
      simp only at h
      by_cases h1 : m = str! "Option"
      · rw [if_pos h1] at h
        have : us.length = 1 := by rw [hl, h1]; decide
        obtain ⟨x, rfl⟩ := List.length_eq_one_iff.mp this
        simp only [List.reverse_append, List.reverse_cons, List.reverse_nil, List.nil_append,
          List.cons_append, Option.map_eq_some_iff] at h
        obtain ⟨u, hu, rfl⟩ := h
        exact .option _ (ih x (by simp) hu)
      rw [if_neg h1] at h
      by_cases h2 : m = str! "List"
      · rw [if_pos h2] at h
        have : us.length = 1 := by rw [hl, h2]; decide
        obtain ⟨x, rfl⟩ := List.length_eq_one_iff.mp this
        simp only [List.reverse_append, List.reverse_cons, List.reverse_nil, List.nil_append,
          List.cons_append, Option.map_eq_some_iff] at h
        obtain ⟨u, hu, rfl⟩ := h
        exact .list _ (ih x (by simp) hu)
      rw [if_neg h2] at h
      by_cases h3 : m = str! "Pair"
      · rw [if_pos h3] at h
        have : us.length = 2 := by rw [hl, h3]; decide
        obtain ⟨x, y, rfl⟩ := length_two this
        simp only [List.reverse_append, List.reverse_cons, List.reverse_nil, List.nil_append,
          List.cons_append, Option.map_eq_some_iff, Option.bind_eq_some_iff] at h
        obtain ⟨u, hu, v, hv, rfl⟩ := h
        exact .pair _ _ (ih x (by simp) hu) (ih y (by simp) hv)
      rw [if_neg h3] at h
      by_cases h4 : m = str! "Map"
      · rw [if_pos h4] at h
        have : us.length = 2 := by rw [hl, h4]; decide
        obtain ⟨x, y, rfl⟩ := length_two this
        simp only [List.reverse_append, List.reverse_cons, List.reverse_nil, List.nil_append,
          List.cons_append, Option.map_eq_some_iff, Option.bind_eq_some_iff] at h
        obtain ⟨u, hu, v, hv, rfl⟩ := h
        exact .map _ _ (ih x (by simp) hu) (ih y (by simp) hv)
      rw [if_neg h4] at h
      simp only [Option.some.injEq] at h
      subst h
      unfold otherType
      by_cases h5 : m = str! "ByStr20"
      · rw [if_pos h5]
        cases a with
        | none => exact .builtin (str! "ByStr20") _ (by simp [builtinTypes])
        | some p => exact .address _ _
      · rw [if_neg h5]
        cases hp : (stripByStr m).bind parseUsize with
        | some n =>
          obtain ⟨_, _, _, _, _, hlt⟩ := (byStrName_iff m n).mp hp
          exact .byStrX n hlt
        | none =>
          refine .other m ?_ ?_
          · intro hm
            simp only [reservedNames, List.mem_append] at hm
            rcases hm with hm | hm
            · rw [baseType_eq, if_neg h5] at hb
              rw [List.lookup_eq_none_iff] at hb
              obtain ⟨p, hmem, rfl⟩ := List.mem_map.mp hm
              have := hb p hmem
              simp at this
            · simp only [List.mem_cons, List.not_mem_nil, or_false] at hm
              rcases hm with hm | hm | hm | hm <;> contradiction
          · intro n hn
            rw [(byStrName_iff m n).mpr hn] at hp
            simp at hp

theorem toTy_of_denotable {t : Ty} (h : Denotable t) : ∃ s : SrType, s.toTy = some t := by
  induction h with
  | builtin name t h => exact ⟨_, builtin_toTy h⟩
  | byStrX n hn =>
    refine ⟨.ofName (str! "ByStr0" ++ natDigits n), ?_⟩
    obtain ⟨_, h2, h3⟩ := natDigits_value n
    have hne : ∀ s, s ∈ reservedNames → str! "ByStr0" ++ natDigits n ≠ s := by
      intro s hs e
      have h5 : (str! "ByStr0" ++ natDigits n)[5]? = s[5]? := by rw [e]
      have h0 : (str! "ByStr0" ++ natDigits n)[0]? = s[0]? := by rw [e]
      simp only [reservedNames, builtinTypes, List.map_cons, List.map_nil, List.mem_append,
        List.mem_cons, List.not_mem_nil, or_false] at hs
      rcases hs with (rfl | rfl | rfl | rfl | rfl | rfl | rfl | rfl | rfl | rfl | rfl | rfl | rfl) |
        (rfl | rfl | rfl | rfl) <;> simp at h5 h0
    have hb : baseType (str! "ByStr0" ++ natDigits n) = none := by
      apply baseType_none
      intro hm
      exact hne _ (by rw [reservedNames]; exact List.mem_append_left _ hm) rfl
    have hp : (stripByStr (str! "ByStr0" ++ natDigits n)).bind parseUsize = some n := by
      rw [byStrName_iff]
      refine ⟨'0' :: natDigits n, .inl rfl, by simp, ?_, ?_, hn⟩
      · intro c hc
        rcases List.mem_cons.mp hc with rfl | hc
        · decide
        · exact h2 c hc
      · simpa [digitsValue] using h3
    rw [SrType.ofName, toTy_eq, hb]
    simp only
    rw [if_neg (hne _ (by simp [reservedNames])), if_neg (hne _ (by simp [reservedNames])),
      if_neg (hne _ (by simp [reservedNames])), if_neg (hne _ (by simp [reservedNames])), otherType,
      if_neg (hne _ (by simp [reservedNames, builtinTypes])), hp]
  | address tag fs => exact ⟨.mk (str! "ByStr20") [] (some (tag, fs)), rfl⟩
  | option t _ ih =>
    obtain ⟨s, hs⟩ := ih
    exact ⟨.mk (str! "Option") [s] none, by rw [toTy_eq]; simp [hs, show baseType (str! "Option") = none from rfl]⟩
  | list t _ ih =>
    obtain ⟨s, hs⟩ := ih
    exact ⟨.mk (str! "List") [s] none, by rw [toTy_eq]; simp [hs, show baseType (str! "List") = none from rfl]⟩
  | pair a b _ _ iha ihb =>
    obtain ⟨s, hs⟩ := iha
    obtain ⟨u, hu⟩ := ihb
    exact ⟨.mk (str! "Pair") [s, u] none, by rw [toTy_eq]; simp [hs, hu, show baseType (str! "Pair") = none from rfl]⟩
  | map a b _ _ iha ihb =>
    obtain ⟨s, hs⟩ := iha
    obtain ⟨u, hu⟩ := ihb
    exact ⟨.mk (str! "Map") [s, u] none, by rw [toTy_eq]; simp [hs, hu, show baseType (str! "Map") = none from rfl]⟩
  | other s h1 h2 =>
    refine ⟨.ofName s, ?_⟩
    have hne : ∀ x, x ∈ reservedNames → s ≠ x := by rintro x hx rfl; exact h1 hx
    have hb : baseType s = none := baseType_none fun hm =>
      h1 (by rw [reservedNames]; exact List.mem_append_left _ hm)
    have hp : (stripByStr s).bind parseUsize = none := by
      cases hp : (stripByStr s).bind parseUsize with
      | none => rfl
      | some n => exact absurd ((byStrName_iff s n).mp hp) (h2 n)
    rw [SrType.ofName, toTy_eq, hb]
    simp only
    rw [if_neg (hne _ (by simp [reservedNames])), if_neg (hne _ (by simp [reservedNames])),
      if_neg (hne _ (by simp [reservedNames])), if_neg (hne _ (by simp [reservedNames])), otherType,
      if_neg (hne _ (by simp [reservedNames, builtinTypes])), hp]

/-- C31: the types the conversion can produce are exactly the `Denotable` ones: everything except
`Other` with the spelling of another type and `ByStrX` numbers of more than 64 bits. -/
theorem C31_image (t : Ty) : (∃ s : SrType, s.toTy = some t) ↔ Denotable t :=
  ⟨fun ⟨_, h⟩ => denotable_of_toTy h, toTy_of_denotable⟩

/-- C31: the meaning of a name, with or without arguments. -/
theorem C31_structural (ignored : List SrType) (x y : SrType) (a b : Ty) (addr : Option (Str × List Field))
    (hx : x.toTy = some a) (hy : y.toTy = some b) :
    (SrType.mk (str! "Option") (ignored ++ [x]) addr).toTy = some (.option a) ∧
    (SrType.mk (str! "List") (ignored ++ [x]) addr).toTy = some (.list a) ∧
    (SrType.mk (str! "Pair") (ignored ++ [x, y]) addr).toTy = some (.pair a b) ∧
    (SrType.mk (str! "Map") (ignored ++ [x, y]) addr).toTy = some (.map a b) := by
  refine ⟨?_, ?_, ?_, ?_⟩
  · rw [toTy_eq]; simp [hx, show baseType (str! "Option") = none from rfl]
  · rw [toTy_eq]; simp [hx, show baseType (str! "List") = none from rfl]
  · rw [toTy_eq]; simp [hx, hy, show baseType (str! "Pair") = none from rfl]
  · rw [toTy_eq]; simp [hx, hy, show baseType (str! "Map") = none from rfl]

theorem C31_names (name : Str) (subs : List SrType) :
    (∀ t, (name, t) ∈ builtinTypes → (SrType.mk name subs none).toTy = some t) ∧
    (∀ n, name ∉ reservedNames → ByStrName name n →
      (SrType.mk name subs none).toTy = some (.byStrX n)) ∧
    (name ∉ reservedNames → (∀ n, ¬ ByStrName name n) →
      (SrType.mk name subs none).toTy = some (.other name)) ∧
    (∀ tag fs, (SrType.mk (str! "ByStr20") subs (some (tag, fs))).toTy =
      some (.byStr20With tag fs)) := by
  have hn : name ∉ reservedNames → (SrType.mk name subs none).toTy =
      match (stripByStr name).bind parseUsize with
      | some n => some (.byStrX n)
      | none => some (.other name) := by
    intro h1
    have hne : ∀ x, x ∈ reservedNames → name ≠ x := by rintro x hx rfl; exact h1 hx
    have hb : baseType name = none := baseType_none fun hm =>
      h1 (by rw [reservedNames]; exact List.mem_append_left _ hm)
    rw [toTy_eq, hb]
    simp only
    rw [if_neg (hne _ (by simp [reservedNames])), if_neg (hne _ (by simp [reservedNames])),
      if_neg (hne _ (by simp [reservedNames])), if_neg (hne _ (by simp [reservedNames])), otherType,
      if_neg (hne _ (by simp [reservedNames, builtinTypes]))]
    cases (stripByStr name).bind parseUsize <;> rfl
  refine ⟨?_, ?_, ?_, ?_⟩
  · intro t ht
    simp only [builtinTypes, List.mem_cons, List.not_mem_nil, or_false, Prod.mk.injEq] at ht
    rcases ht with ⟨rfl, rfl⟩ | ⟨rfl, rfl⟩ | ⟨rfl, rfl⟩ | ⟨rfl, rfl⟩ | ⟨rfl, rfl⟩ | ⟨rfl, rfl⟩ |
      ⟨rfl, rfl⟩ | ⟨rfl, rfl⟩ | ⟨rfl, rfl⟩ | ⟨rfl, rfl⟩ | ⟨rfl, rfl⟩ | ⟨rfl, rfl⟩ | ⟨rfl, rfl⟩ <;>
      (rw [toTy_eq]; rfl)
  · intro n h1 h2
    rw [hn h1, (byStrName_iff name n).mpr h2]
  · intro h1 h2
    rw [hn h1]
    cases hp : (stripByStr name).bind parseUsize with
    | none => rfl
    | some n => exact absurd ((byStrName_iff name n).mp hp) (h2 n)
  · intro tag fs
    rw [toTy_eq]
    rfl

/-- `ByStr020` is a different type from `ByStr20`, although both are displayed as `ByStr20`. -/
theorem C31_C33_leading_zero :
    (SrType.ofName (str! "ByStr020")).toTy = some (.byStrX 20) ∧
    (SrType.ofName (str! "ByStr20")).toTy = some .byStr20 ∧
    Ty.display (.byStrX 20) = Ty.display .byStr20 := ⟨rfl, rfl, rfl⟩

end Verif
