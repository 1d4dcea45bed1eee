import Verif.Model.Debug
import Verif.Props.Types
/-
The `{:?}` renderings can be read back.
-/
namespace Verif

/-! ### Characters and strings -/

theorem hexDigits_step {n : Nat} (h : 16 ≤ n) : hexDigits n = hexDigits (n / 16) ++ [Nat.digitChar (n % 16)] :=
  Nat.toDigits_of_base_le (by decide) h
theorem hexDigits_small {n : Nat} (h : n < 16) : hexDigits n = [Nat.digitChar n] := Nat.toDigits_of_lt_base h

theorem digitChar_inj {m n : Nat} (hm : m < 16) (hn : n < 16) (h : Nat.digitChar m = Nat.digitChar n) : m = n := by
  have : ∀ m : Fin 16, ∀ n : Fin 16, Nat.digitChar m = Nat.digitChar n → m = n := by decide
  have := this ⟨m, hm⟩ ⟨n, hn⟩ h
  simpa using this

theorem digitChar_ne_brace {m : Nat} (hm : m < 16) : Nat.digitChar m ≠ '}' := by
  have : ∀ m : Fin 16, Nat.digitChar m ≠ '}' := by decide
  exact this ⟨m, hm⟩

theorem hexDigits_ne_brace (n : Nat) : ∀ c ∈ hexDigits n, c ≠ '}' := by
  induction n using Nat.strongRecOn with
  | _ n ih =>
    by_cases h : n < 16
    · rw [hexDigits_small h]
      simpa using digitChar_ne_brace h
    · rw [hexDigits_step (by omega)]
      intro c hc
      rcases List.mem_append.1 hc with hc | hc
      · exact ih _ (by omega) c hc
      · obtain rfl := List.mem_singleton.1 hc
        exact digitChar_ne_brace (by omega)

theorem hexDigits_inj (m n : Nat) (h : hexDigits m = hexDigits n) : m = n := by
  induction m using Nat.strongRecOn generalizing n with
  | _ m ih =>
    have hne : ∀ k, hexDigits k ≠ [] := fun k => Nat.toDigits_ne_nil
    by_cases hm : m < 16 <;> by_cases hn : n < 16
    · rw [hexDigits_small hm, hexDigits_small hn] at h
      exact digitChar_inj hm hn (by simpa using h)
    · rw [hexDigits_small hm, hexDigits_step (by omega)] at h
      have := congrArg List.length h
      simp only [List.length_append, List.length_cons, List.length_nil] at this
      exact absurd (List.length_eq_zero_iff.mp (by omega)) (hne (n / 16))
    · rw [hexDigits_small hn, hexDigits_step (by omega)] at h
      have := congrArg List.length h
      simp only [List.length_append, List.length_cons, List.length_nil] at this
      exact absurd (List.length_eq_zero_iff.mp (by omega)) (hne (m / 16))
    · rw [hexDigits_step (n := m) (by omega), hexDigits_step (n := n) (by omega)] at h
      obtain ⟨h1, h2⟩ := List.append_inj' h rfl
      have e1 := ih (m / 16) (by omega) (n / 16) h1
      have e2 := digitChar_inj (Nat.mod_lt _ (by decide)) (Nat.mod_lt _ (by decide)) (by simpa using h2)
      omega

theorem split_at {c : Char} {a b x y : Str} (ha : ∀ d ∈ a, d ≠ c) (hb : ∀ d ∈ b, d ≠ c)
    (h : a ++ c :: x = b ++ c :: y) : a = b ∧ x = y := by
  induction a generalizing b with
  | nil =>
    cases b with
    | nil => simpa using h
    | cons d b => simp only [List.nil_append, List.cons_append, List.cons.injEq] at h; exact absurd h.1.symm (hb d (by simp))
  | cons d a ih =>
    cases b with
    | nil => simp only [List.nil_append, List.cons_append, List.cons.injEq] at h; exact absurd h.1 (ha d (by simp))
    | cons d' b =>
      simp only [List.cons_append, List.cons.injEq] at h
      obtain ⟨rfl, e⟩ := h
      obtain ⟨rfl, e'⟩ := ih (fun x hx => ha x (by simp [hx])) (fun x hx => hb x (by simp [hx])) e
      exact ⟨rfl, e'⟩

/-- How Rust shows a character outside ASCII: as it is, or by its number. -/
def RustEscapes (esc : Char → Str) : Prop :=
  ∀ c : Char, 128 ≤ c.toNat → esc c = [c] ∨ esc c = str! "\\u{" ++ hexDigits c.toNat ++ str! "}"

/-- the letter after the backslash, for the short escapes -/
def shortEscape (c : Char) : Option Char :=
  if c = '\x00' then some '0'
  else if c = '\t' then some 't'
  else if c = '\r' then some 'r'
  else if c = '\n' then some 'n'
  else if c = '"' then some '"'
  else if c = '\\' then some '\\'
  else none

section
variable {esc : Char → Str} (hesc : RustEscapes esc)
include hesc

/-- the three forms of an escaped character -/
theorem debugChar_forms (c : Char) :
    (∃ d, shortEscape c = some d ∧ debugChar esc c = ['\\', d]) ∨
    (debugChar esc c = '\\' :: 'u' :: '{' :: (hexDigits c.toNat ++ ['}'])) ∨
    (c ≠ '"' ∧ c ≠ '\\' ∧ debugChar esc c = [c]) := by
  unfold debugChar shortEscape
  by_cases h1 : c = '\x00'
  · subst h1; exact .inl ⟨'0', rfl, rfl⟩
  rw [if_neg h1, if_neg h1]
  by_cases h2 : c = '\t'
  · subst h2; exact .inl ⟨'t', rfl, rfl⟩
  rw [if_neg h2, if_neg h2]
  by_cases h3 : c = '\r'
  · subst h3; exact .inl ⟨'r', rfl, rfl⟩
  rw [if_neg h3, if_neg h3]
  by_cases h4 : c = '\n'
  · subst h4; exact .inl ⟨'n', rfl, rfl⟩
  rw [if_neg h4, if_neg h4]
  by_cases h5 : c = '"'
  · subst h5; exact .inl ⟨'"', rfl, rfl⟩
  rw [if_neg h5, if_neg h5]
  by_cases h6 : c = '\\'
  · subst h6; exact .inl ⟨'\\', rfl, rfl⟩
  rw [if_neg h6, if_neg h6]
  by_cases h7 : c.toNat < 32 ∨ c.toNat = 127
  · rw [if_pos h7]; exact .inr (.inl (by simp))
  rw [if_neg h7]
  by_cases h8 : c.toNat < 128
  · rw [if_pos h8]; exact .inr (.inr ⟨h5, h6, rfl⟩)
  rw [if_neg h8]
  rcases hesc c (by omega) with e | e
  · exact .inr (.inr ⟨h5, h6, e⟩)
  · exact .inr (.inl (by rw [e]; simp))

omit hesc in
theorem shortEscape_inj {a b d : Char} (ha : shortEscape a = some d) (hb : shortEscape b = some d) : a = b := by
  have key : ∀ c, shortEscape c = some d → (c, d) ∈ [('\x00', '0'), ('\t', 't'), ('\r', 'r'), ('\n', 'n'), ('"', '"'), ('\\', '\\')] := by
    intro c h
    unfold shortEscape at h
    repeat' split at h
    all_goals first | (simp at h; done) | (simp only [Option.some.injEq] at h; subst h; subst c; simp)
  have h1 := key a ha
  have h2 := key b hb
  simp only [List.mem_cons, Prod.mk.injEq, List.not_mem_nil, or_false] at h1 h2
  rcases h1 with ⟨rfl, rfl⟩ | ⟨rfl, rfl⟩ | ⟨rfl, rfl⟩ | ⟨rfl, rfl⟩ | ⟨rfl, rfl⟩ | ⟨rfl, rfl⟩ <;>
    simp at h2 <;> simp [h2]

omit hesc in
theorem shortEscape_ne_u {c d : Char} (h : shortEscape c = some d) : d ≠ 'u' := by
  rintro rfl
  unfold shortEscape at h
  repeat' split at h
  all_goals simp at h

theorem debugChar_inj {a b : Char} {x y : Str} (h : debugChar esc a ++ x = debugChar esc b ++ y) :
    a = b ∧ x = y := by
  rcases debugChar_forms hesc a with ⟨d, ha, ea⟩ | ea | ⟨ha1, ha2, ea⟩ <;>
    rcases debugChar_forms hesc b with ⟨d', hb, eb⟩ | eb | ⟨hb1, hb2, eb⟩ <;>
    rw [ea, eb] at h <;> simp only [List.cons_append, List.nil_append, List.cons.injEq, List.append_assoc] at h
  · obtain ⟨-, rfl, e⟩ := h
    exact ⟨shortEscape_inj ha hb, e⟩
  · exact absurd h.2.1 (shortEscape_ne_u ha)
  · exact absurd h.1.symm hb2
  · exact absurd h.2.1.symm (shortEscape_ne_u hb)
  · obtain ⟨e1, e2⟩ := split_at (hexDigits_ne_brace _) (hexDigits_ne_brace _) h.2.2.2
    exact ⟨Char.toNat_inj.mp (hexDigits_inj _ _ e1), e2⟩
  · exact absurd h.1.symm hb2
  · exact absurd h.1 ha2
  · exact absurd h.1 ha2
  · exact h

theorem debugChar_not_quote (c : Char) (x y : Str) : debugChar esc c ++ x ≠ '"' :: y := by
  intro h
  rcases debugChar_forms hesc c with ⟨d, ha, ea⟩ | ea | ⟨ha1, ha2, ea⟩ <;> rw [ea] at h <;> simp at h
  exact ha1 h.1

theorem flatMap_inj {a b x y : Str}
    (h : a.flatMap (debugChar esc) ++ '"' :: x = b.flatMap (debugChar esc) ++ '"' :: y) : a = b ∧ x = y := by
  induction a generalizing b with
  | nil =>
    cases b with
    | nil => simpa using h
    | cons c b =>
      simp only [List.flatMap_nil, List.nil_append, List.flatMap_cons, List.append_assoc] at h
      exact absurd h.symm (debugChar_not_quote hesc _ _ _)
  | cons c a ih =>
    cases b with
    | nil =>
      simp only [List.flatMap_nil, List.nil_append, List.flatMap_cons, List.append_assoc] at h
      exact absurd h (debugChar_not_quote hesc _ _ _)
    | cons d b =>
      simp only [List.flatMap_cons, List.append_assoc] at h
      obtain ⟨rfl, e⟩ := debugChar_inj hesc h
      obtain ⟨rfl, e'⟩ := ih e
      exact ⟨rfl, e'⟩

theorem debugStr_inj {a b x y : Str} (h : debugStr esc a ++ x = debugStr esc b ++ y) : a = b ∧ x = y := by
  simp only [debugStr, List.cons_append, List.append_assoc, List.cons.injEq, List.nil_append, true_and] at h
  exact flatMap_inj hesc h

end

/-! ### Numbers and positions -/

/-- the text does not go on with a letter or a digit -/
def Stops (x : Str) : Prop := ∀ c, x.head? = some c → c.isAlphanum = false

theorem stops_cons {c : Char} {x : Str} (h : c.isAlphanum = false) : Stops (c :: x) := by
  intro d hd; simp at hd; subst hd; exact h

theorem word_inj {a b x y : Str} (ha : ∀ c ∈ a, c.isAlphanum = true) (hb : ∀ c ∈ b, c.isAlphanum = true)
    (hx : Stops x) (hy : Stops y) (h : a ++ x = b ++ y) : a = b ∧ x = y := by
  induction a generalizing b with
  | nil =>
    cases b with
    | nil => exact ⟨rfl, by simpa using h⟩
    | cons d b =>
      simp only [List.nil_append] at h
      have := hx d (by rw [h]; rfl)
      rw [hb d (by simp)] at this; cases this
  | cons c a ih =>
    cases b with
    | nil =>
      simp only [List.nil_append] at h
      have := hy c (by rw [← h]; rfl)
      rw [ha c (by simp)] at this; cases this
    | cons d b =>
      simp only [List.cons_append, List.cons.injEq] at h
      obtain ⟨rfl, e⟩ := h
      obtain ⟨rfl, e'⟩ := ih (fun x hx => ha x (by simp [hx])) (fun x hx => hb x (by simp [hx])) e
      exact ⟨rfl, e'⟩

theorem natDigits_alnum (n : Nat) : ∀ c ∈ natDigits n, c.isAlphanum = true := by
  intro c hc
  have := Nat.isDigit_of_mem_toDigits (by decide : 0 < 10) (by decide : 10 ≤ 10) hc
  simp [Char.isAlphanum, this]

theorem natDigits_inj {m n : Nat} {x y : Str} (hx : Stops x) (hy : Stops y)
    (h : natDigits m ++ x = natDigits n ++ y) : m = n ∧ x = y := by
  obtain ⟨e, e'⟩ := word_inj (natDigits_alnum m) (natDigits_alnum n) hx hy h
  refine ⟨?_, e'⟩
  rw [← (natDigits_value m).2.2, ← (natDigits_value n).2.2, e]

theorem Pos.debug_inj {p q : Pos} {x y : Str} (h : p.debug ++ x = q.debug ++ y) : p = q ∧ x = y := by
  simp only [Pos.debug, List.append_assoc] at h
  obtain ⟨e1, h⟩ := natDigits_inj (by exact stops_cons rfl) (by exact stops_cons rfl) (List.append_cancel_left h)
  obtain ⟨e2, h⟩ := natDigits_inj (by exact stops_cons rfl) (by exact stops_cons rfl) (List.append_cancel_left h)
  obtain ⟨e3, h⟩ := natDigits_inj (by exact stops_cons rfl) (by exact stops_cons rfl) (List.append_cancel_left h)
  refine ⟨?_, List.append_cancel_left h⟩
  cases p; cases q
  simp only at e1 e2 e3
  rw [e1, e2, e3]

/-! ### Types -/

section
variable (esc : Char → Str)

/-- the name of the variant -/
def Ty.variant : Ty → Str
  | .int32 => str! "Int32"
  | .int64 => str! "Int64"
  | .int128 => str! "Int128"
  | .int256 => str! "Int256"
  | .uint32 => str! "Uint32"
  | .uint64 => str! "Uint64"
  | .uint128 => str! "Uint128"
  | .uint256 => str! "Uint256"
  | .string => str! "String"
  | .bNum => str! "BNum"
  | .bool => str! "Bool"
  | .map _ _ => str! "Map"
  | .option _ => str! "Option"
  | .list _ => str! "List"
  | .pair _ _ => str! "Pair"
  | .byStr => str! "ByStr"
  | .byStrX _ => str! "ByStrX"
  | .byStr20 => str! "ByStr20"
  | .byStr20With _ _ => str! "ByStr20With"
  | .other _ => str! "Other"

/-- what follows it -/
def Ty.payload : Ty → Str
  | .map k v => str! "(" ++ (k.debug esc ++ (str! ", " ++ (v.debug esc ++ str! ")")))
  | .option t => str! "(" ++ (t.debug esc ++ str! ")")
  | .list t => str! "(" ++ (t.debug esc ++ str! ")")
  | .pair a b => str! "(" ++ (a.debug esc ++ (str! ", " ++ (b.debug esc ++ str! ")")))
  | .byStrX n => str! "(" ++ (natDigits n ++ str! ")")
  | .byStr20With n fs => str! " { type_name: " ++ (debugStr esc n ++ (str! ", fields: FieldList([" ++
      (debugFields esc fs ++ str! "]) }")))
  | .other s => str! "(" ++ (debugStr esc s ++ str! ")")
  | _ => []

theorem Ty.debug_split (t : Ty) : t.debug esc = t.variant ++ t.payload esc := by
  cases t <;> rfl

theorem Ty.variant_alnum (t : Ty) : ∀ c ∈ t.variant, c.isAlphanum = true := by
  cases t <;> simp only [Ty.variant] <;> decide

theorem Ty.payload_stops (t : Ty) {x : Str} (hx : Stops x) : Stops (t.payload esc ++ x) := by
  cases t <;> first | exact hx | exact stops_cons rfl

variable {esc} (hesc : RustEscapes esc)
include hesc

mutual
theorem Ty.debug_inj : ∀ (a b : Ty) (x y : Str), Stops x → Stops y → a.debug esc ++ x = b.debug esc ++ y →
    a = b ∧ x = y
  | a, b, x, y, hx, hy, h => by
    rw [Ty.debug_split, Ty.debug_split, List.append_assoc, List.append_assoc] at h
    replace h := word_inj a.variant_alnum b.variant_alnum (a.payload_stops esc hx) (b.payload_stops esc hy) h
    obtain ⟨hv, h⟩ := h
    have st : ∀ {c : Char} {x : Str}, c.isAlphanum = false → Stops (c :: x) := stops_cons
    match a with
    | .map k v =>
      cases b <;> try (simp [Ty.variant] at hv; done)
      rename_i k' v'
      simp only [Ty.payload, List.append_assoc, List.append_cancel_left_eq] at h
      replace h := Ty.debug_inj k k' _ _ (by exact st rfl) (by exact st rfl) h
      obtain ⟨rfl, h⟩ := h
      simp only [List.append_cancel_left_eq] at h
      replace h := Ty.debug_inj v v' _ _ (by exact st rfl) (by exact st rfl) h
      obtain ⟨rfl, h⟩ := h
      exact ⟨rfl, List.append_cancel_left h⟩
    | .pair k v =>
      cases b <;> try (simp [Ty.variant] at hv; done)
      rename_i k' v'
      simp only [Ty.payload, List.append_assoc, List.append_cancel_left_eq] at h
      replace h := Ty.debug_inj k k' _ _ (by exact st rfl) (by exact st rfl) h
      obtain ⟨rfl, h⟩ := h
      simp only [List.append_cancel_left_eq] at h
      replace h := Ty.debug_inj v v' _ _ (by exact st rfl) (by exact st rfl) h
      obtain ⟨rfl, h⟩ := h
      exact ⟨rfl, List.append_cancel_left h⟩
    | .option t =>
      cases b <;> try (simp [Ty.variant] at hv; done)
      rename_i u
      simp only [Ty.payload, List.append_assoc, List.append_cancel_left_eq] at h
      replace h := Ty.debug_inj t u _ _ (by exact st rfl) (by exact st rfl) h
      obtain ⟨rfl, h⟩ := h
      exact ⟨rfl, List.append_cancel_left h⟩
    | .list t =>
      cases b <;> try (simp [Ty.variant] at hv; done)
      rename_i u
      simp only [Ty.payload, List.append_assoc, List.append_cancel_left_eq] at h
      replace h := Ty.debug_inj t u _ _ (by exact st rfl) (by exact st rfl) h
      obtain ⟨rfl, h⟩ := h
      exact ⟨rfl, List.append_cancel_left h⟩
    | .byStr20With n fs =>
      cases b <;> try (simp [Ty.variant] at hv; done)
      rename_i n' gs
      simp only [Ty.payload, List.append_assoc, List.append_cancel_left_eq] at h
      replace h := debugStr_inj hesc h
      obtain ⟨rfl, h⟩ := h
      simp only [List.append_cancel_left_eq] at h
      replace h := debugFields_inj fs gs (str! ") }" ++ x) (str! ") }" ++ y) (by simpa using h)
      obtain ⟨rfl, h⟩ := h
      exact ⟨rfl, List.append_cancel_left h⟩
    | .byStrX n =>
      cases b <;> try (simp [Ty.variant] at hv; done)
      simp only [Ty.payload, List.append_assoc, List.append_cancel_left_eq] at h
      replace h := natDigits_inj (by exact st rfl) (by exact st rfl) h
      obtain ⟨rfl, h⟩ := h
      exact ⟨rfl, List.append_cancel_left h⟩
    | .other s =>
      cases b <;> try (simp [Ty.variant] at hv; done)
      simp only [Ty.payload, List.append_assoc, List.append_cancel_left_eq] at h
      replace h := debugStr_inj hesc h
      obtain ⟨rfl, h⟩ := h
      exact ⟨rfl, List.append_cancel_left h⟩
    | .int32 => cases b <;> first | exact ⟨rfl, h⟩ | (simp [Ty.variant] at hv; done)
    | .int64 => cases b <;> first | exact ⟨rfl, h⟩ | (simp [Ty.variant] at hv; done)
    | .int128 => cases b <;> first | exact ⟨rfl, h⟩ | (simp [Ty.variant] at hv; done)
    | .int256 => cases b <;> first | exact ⟨rfl, h⟩ | (simp [Ty.variant] at hv; done)
    | .uint32 => cases b <;> first | exact ⟨rfl, h⟩ | (simp [Ty.variant] at hv; done)
    | .uint64 => cases b <;> first | exact ⟨rfl, h⟩ | (simp [Ty.variant] at hv; done)
    | .uint128 => cases b <;> first | exact ⟨rfl, h⟩ | (simp [Ty.variant] at hv; done)
    | .uint256 => cases b <;> first | exact ⟨rfl, h⟩ | (simp [Ty.variant] at hv; done)
    | .string => cases b <;> first | exact ⟨rfl, h⟩ | (simp [Ty.variant] at hv; done)
    | .bNum => cases b <;> first | exact ⟨rfl, h⟩ | (simp [Ty.variant] at hv; done)
    | .bool => cases b <;> first | exact ⟨rfl, h⟩ | (simp [Ty.variant] at hv; done)
    | .byStr => cases b <;> first | exact ⟨rfl, h⟩ | (simp [Ty.variant] at hv; done)
    | .byStr20 => cases b <;> first | exact ⟨rfl, h⟩ | (simp [Ty.variant] at hv; done)
theorem debugFields_inj : ∀ (fs gs : List Field) (x y : Str),
    debugFields esc fs ++ ']' :: x = debugFields esc gs ++ ']' :: y → fs = gs ∧ x = y
  | [], [], x, y, h => by simpa [debugFields] using h
  | [], [⟨_, _⟩], x, y, h => by simp [debugFields] at h
  | [], ⟨_, _⟩ :: _ :: _, x, y, h => by simp [debugFields] at h
  | [⟨_, _⟩], [], x, y, h => by simp [debugFields] at h
  | ⟨_, _⟩ :: _ :: _, [], x, y, h => by simp [debugFields] at h
  | [⟨n, t⟩], [⟨m, u⟩], x, y, h => by
    simp only [debugFields, List.append_assoc, List.append_cancel_left_eq] at h
    replace h := debugStr_inj hesc h
    obtain ⟨rfl, h⟩ := h
    simp only [List.append_cancel_left_eq] at h
    replace h := Ty.debug_inj t u _ _ (by exact stops_cons rfl) (by exact stops_cons rfl) h
    obtain ⟨rfl, h⟩ := h
    exact ⟨rfl, by simpa using h⟩
  | [⟨n, t⟩], ⟨m, u⟩ :: g :: gs, x, y, h => by
    simp only [debugFields, List.append_assoc, List.append_cancel_left_eq] at h
    replace h := debugStr_inj hesc h
    obtain ⟨rfl, h⟩ := h
    simp only [List.append_cancel_left_eq] at h
    replace h := Ty.debug_inj t u _ _ (by exact stops_cons rfl) (by exact stops_cons rfl) h
    obtain ⟨rfl, h⟩ := h
    simp at h
  | ⟨n, t⟩ :: f :: fs, [⟨m, u⟩], x, y, h => by
    simp only [debugFields, List.append_assoc, List.append_cancel_left_eq] at h
    replace h := debugStr_inj hesc h
    obtain ⟨rfl, h⟩ := h
    simp only [List.append_cancel_left_eq] at h
    replace h := Ty.debug_inj t u _ _ (by exact stops_cons rfl) (by exact stops_cons rfl) h
    obtain ⟨rfl, h⟩ := h
    simp at h
  | ⟨n, t⟩ :: f :: fs, ⟨m, u⟩ :: g :: gs, x, y, h => by
    simp only [debugFields, List.append_assoc, List.append_cancel_left_eq] at h
    replace h := debugStr_inj hesc h
    obtain ⟨rfl, h⟩ := h
    simp only [List.append_cancel_left_eq] at h
    replace h := Ty.debug_inj t u _ _ (by exact stops_cons rfl) (by exact stops_cons rfl) h
    obtain ⟨rfl, h⟩ := h
    simp only [List.append_cancel_left_eq] at h
    replace h := debugFields_inj (f :: fs) (g :: gs) x y h
    obtain ⟨e, h⟩ := h
    exact ⟨by rw [e], h⟩
end

theorem debugFieldList_inj {fs gs : List Field} {x y : Str}
    (h : debugFieldList esc fs ++ x = debugFieldList esc gs ++ y) : fs = gs ∧ x = y := by
  simp only [debugFieldList, List.append_assoc, List.append_cancel_left_eq] at h
  replace h := debugFields_inj hesc fs gs (')' :: x) (')' :: y) (by simpa using h)
  obtain ⟨e, h⟩ := h
  exact ⟨e, by simpa using h⟩

theorem debugTransitions_inj {ts us : List Transition} {x y : Str}
    (h : debugTransitions esc ts ++ ']' :: x = debugTransitions esc us ++ ']' :: y) : ts = us ∧ x = y := by
  induction ts generalizing us with
  | nil =>
    match us with
    | [] => simpa [debugTransitions] using h
    | [u] => simp [debugTransitions] at h
    | u :: v :: us => simp [debugTransitions] at h
  | cons t ts ih =>
    match us with
    | [] => cases ts <;> simp [debugTransitions] at h
    | [u] =>
      cases ts with
      | nil =>
        simp only [debugTransitions, List.append_assoc, List.append_cancel_left_eq] at h
        replace h := debugStr_inj hesc h
        obtain ⟨e1, h⟩ := h
        simp only [List.append_cancel_left_eq] at h
        replace h := debugFieldList_inj hesc h
        obtain ⟨e2, h⟩ := h
        obtain ⟨tn, tp⟩ := t; obtain ⟨un, up⟩ := u
        simp only at e1 e2
        exact ⟨by rw [e1, e2], by simpa using h⟩
      | cons v ts =>
        simp only [debugTransitions, List.append_assoc, List.append_cancel_left_eq] at h
        replace h := debugStr_inj hesc h
        obtain ⟨e1, h⟩ := h
        simp only [List.append_cancel_left_eq] at h
        replace h := debugFieldList_inj hesc h
        obtain ⟨e2, h⟩ := h
        simp at h
    | u :: v :: us =>
      cases ts with
      | nil =>
        simp only [debugTransitions, List.append_assoc, List.append_cancel_left_eq] at h
        replace h := debugStr_inj hesc h
        obtain ⟨e1, h⟩ := h
        simp only [List.append_cancel_left_eq] at h
        replace h := debugFieldList_inj hesc h
        obtain ⟨e2, h⟩ := h
        simp at h
      | cons w ts =>
        simp only [debugTransitions, List.append_assoc, List.append_cancel_left_eq] at h
        replace h := debugStr_inj hesc h
        obtain ⟨e1, h⟩ := h
        simp only [List.append_cancel_left_eq] at h
        replace h := debugFieldList_inj hesc h
        obtain ⟨e2, h⟩ := h
        simp only [List.append_cancel_left_eq] at h
        replace h := ih h
        obtain ⟨e3, h⟩ := h
        obtain ⟨tn, tp⟩ := t; obtain ⟨un, up⟩ := u
        simp only at e1 e2
        exact ⟨by rw [e1, e2, e3], h⟩

theorem Contract.debug_inj {c d : Contract} (h : c.debug esc = d.debug esc) : c = d := by
  simp only [Contract.debug, List.append_cancel_left_eq] at h
  replace h := debugStr_inj hesc h
  obtain ⟨e1, h⟩ := h
  simp only [List.append_cancel_left_eq] at h
  replace h := debugFieldList_inj hesc h
  obtain ⟨e2, h⟩ := h
  simp only [List.append_cancel_left_eq] at h
  replace h := debugFieldList_inj hesc h
  obtain ⟨e3, h⟩ := h
  simp only [List.append_cancel_left_eq] at h
  replace h := debugTransitions_inj hesc (x := str! ") }") (y := str! ") }") (by simpa using h)
  obtain ⟨e4, h⟩ := h
  cases c; cases d
  simp only at e1 e2 e3 e4
  rw [e1, e2, e3, e4]

/-! ### Tokens -/

/-- the tokens without a text, under the names of their variants -/
def plainVariants : List (Str × Token) := [
  (str! "Plus", .plus),
  (str! "Asterisk", .asterisk),
  (str! "Semicolon", .semicolon),
  (str! "Colon", .colon),
  (str! "Dot", .dot),
  (str! "Pipe", .pipe),
  (str! "OpenBracket", .openBracket),
  (str! "CloseBracket", .closeBracket),
  (str! "OpenParen", .openParen),
  (str! "CloseParen", .closeParen),
  (str! "OpenBrace", .openBrace),
  (str! "CloseBrace", .closeBrace),
  (str! "Comma", .comma),
  (str! "DoubleArrow", .doubleArrow),
  (str! "Arrow", .arrow),
  (str! "Equals", .equals),
  (str! "Ampersand", .ampersand),
  (str! "LeftArrow", .leftArrow),
  (str! "ColonEquals", .colonEquals),
  (str! "At", .at_),
  (str! "Minus", .minus),
  (str! "Underscore", .underscore),
  (str! "Forall", .forall_),
  (str! "Builtin", .builtin),
  (str! "Library", .library),
  (str! "Import", .import_),
  (str! "Let", .let_),
  (str! "In", .in_),
  (str! "Match", .match_),
  (str! "With", .with_),
  (str! "End", .end_),
  (str! "Fun", .fun_),
  (str! "Tfun", .tfun),
  (str! "Contract", .contract),
  (str! "Transition", .transition),
  (str! "Send", .send),
  (str! "Field", .field),
  (str! "Accept", .accept),
  (str! "Exists", .exists_),
  (str! "Delete", .delete),
  (str! "Throw", .throw),
  (str! "Map", .map),
  (str! "ScillaVersion", .scillaVersion),
  (str! "Type", .type),
  (str! "Of", .of_),
  (str! "As", .as_),
  (str! "Procedure", .procedure),
  (str! "Emp", .emp),
  (str! "Event", .event),
  (str! "EventType", .eventType),
  (str! "ByStr", .byStr),
  (str! "Whitespace", .whitespace),
  (str! "Unknown", .unknown)]

/-- the tokens with a text -/
def textVariants : List (Str × (Str → Token)) := [
  (str! "ByStrWithSize", .byStrWithSize),
  (str! "Comment", .comment),
  (str! "Number", .number),
  (str! "HexNumber", .hexNumber),
  (str! "Identifier", .identifier),
  (str! "TemplateIdentifier", .templateIdentifier),
  (str! "CustomIdentifier", .customIdentifier),
  (str! "SpecialIdentifier", .specialIdentifier),
  (str! "TypeName", .typeName),
  (str! "StringLiteral", .stringLiteral)]

omit hesc in
theorem Token.debug_forms (t : Token) :
    (∃ n, (n, t) ∈ plainVariants ∧ t.debug esc = n) ∨
    ∃ n f s, (n, f) ∈ textVariants ∧ t = f s ∧ t.debug esc = n ++ '(' :: (debugStr esc s ++ [')']) := by
  cases t
  case plus => exact .inl ⟨str! "Plus", by simp only [plainVariants, List.mem_cons, true_or, or_true], rfl⟩
  case asterisk => exact .inl ⟨str! "Asterisk", by simp only [plainVariants, List.mem_cons, true_or, or_true], rfl⟩
  case semicolon => exact .inl ⟨str! "Semicolon", by simp only [plainVariants, List.mem_cons, true_or, or_true], rfl⟩
  case colon => exact .inl ⟨str! "Colon", by simp only [plainVariants, List.mem_cons, true_or, or_true], rfl⟩
  case dot => exact .inl ⟨str! "Dot", by simp only [plainVariants, List.mem_cons, true_or, or_true], rfl⟩
  case pipe => exact .inl ⟨str! "Pipe", by simp only [plainVariants, List.mem_cons, true_or, or_true], rfl⟩
  case openBracket => exact .inl ⟨str! "OpenBracket", by simp only [plainVariants, List.mem_cons, true_or, or_true], rfl⟩
  case closeBracket => exact .inl ⟨str! "CloseBracket", by simp only [plainVariants, List.mem_cons, true_or, or_true], rfl⟩
  case openParen => exact .inl ⟨str! "OpenParen", by simp only [plainVariants, List.mem_cons, true_or, or_true], rfl⟩
  case closeParen => exact .inl ⟨str! "CloseParen", by simp only [plainVariants, List.mem_cons, true_or, or_true], rfl⟩
  case openBrace => exact .inl ⟨str! "OpenBrace", by simp only [plainVariants, List.mem_cons, true_or, or_true], rfl⟩
  case closeBrace => exact .inl ⟨str! "CloseBrace", by simp only [plainVariants, List.mem_cons, true_or, or_true], rfl⟩
  case comma => exact .inl ⟨str! "Comma", by simp only [plainVariants, List.mem_cons, true_or, or_true], rfl⟩
  case doubleArrow => exact .inl ⟨str! "DoubleArrow", by simp only [plainVariants, List.mem_cons, true_or, or_true], rfl⟩
  case arrow => exact .inl ⟨str! "Arrow", by simp only [plainVariants, List.mem_cons, true_or, or_true], rfl⟩
  case equals => exact .inl ⟨str! "Equals", by simp only [plainVariants, List.mem_cons, true_or, or_true], rfl⟩
  case ampersand => exact .inl ⟨str! "Ampersand", by simp only [plainVariants, List.mem_cons, true_or, or_true], rfl⟩
  case leftArrow => exact .inl ⟨str! "LeftArrow", by simp only [plainVariants, List.mem_cons, true_or, or_true], rfl⟩
  case colonEquals => exact .inl ⟨str! "ColonEquals", by simp only [plainVariants, List.mem_cons, true_or, or_true], rfl⟩
  case at_ => exact .inl ⟨str! "At", by simp only [plainVariants, List.mem_cons, true_or, or_true], rfl⟩
  case minus => exact .inl ⟨str! "Minus", by simp only [plainVariants, List.mem_cons, true_or, or_true], rfl⟩
  case underscore => exact .inl ⟨str! "Underscore", by simp only [plainVariants, List.mem_cons, true_or, or_true], rfl⟩
  case forall_ => exact .inl ⟨str! "Forall", by simp only [plainVariants, List.mem_cons, true_or, or_true], rfl⟩
  case builtin => exact .inl ⟨str! "Builtin", by simp only [plainVariants, List.mem_cons, true_or, or_true], rfl⟩
  case library => exact .inl ⟨str! "Library", by simp only [plainVariants, List.mem_cons, true_or, or_true], rfl⟩
  case import_ => exact .inl ⟨str! "Import", by simp only [plainVariants, List.mem_cons, true_or, or_true], rfl⟩
  case let_ => exact .inl ⟨str! "Let", by simp only [plainVariants, List.mem_cons, true_or, or_true], rfl⟩
  case in_ => exact .inl ⟨str! "In", by simp only [plainVariants, List.mem_cons, true_or, or_true], rfl⟩
  case match_ => exact .inl ⟨str! "Match", by simp only [plainVariants, List.mem_cons, true_or, or_true], rfl⟩
  case with_ => exact .inl ⟨str! "With", by simp only [plainVariants, List.mem_cons, true_or, or_true], rfl⟩
  case end_ => exact .inl ⟨str! "End", by simp only [plainVariants, List.mem_cons, true_or, or_true], rfl⟩
  case fun_ => exact .inl ⟨str! "Fun", by simp only [plainVariants, List.mem_cons, true_or, or_true], rfl⟩
  case tfun => exact .inl ⟨str! "Tfun", by simp only [plainVariants, List.mem_cons, true_or, or_true], rfl⟩
  case contract => exact .inl ⟨str! "Contract", by simp only [plainVariants, List.mem_cons, true_or, or_true], rfl⟩
  case transition => exact .inl ⟨str! "Transition", by simp only [plainVariants, List.mem_cons, true_or, or_true], rfl⟩
  case send => exact .inl ⟨str! "Send", by simp only [plainVariants, List.mem_cons, true_or, or_true], rfl⟩
  case field => exact .inl ⟨str! "Field", by simp only [plainVariants, List.mem_cons, true_or, or_true], rfl⟩
  case accept => exact .inl ⟨str! "Accept", by simp only [plainVariants, List.mem_cons, true_or, or_true], rfl⟩
  case exists_ => exact .inl ⟨str! "Exists", by simp only [plainVariants, List.mem_cons, true_or, or_true], rfl⟩
  case delete => exact .inl ⟨str! "Delete", by simp only [plainVariants, List.mem_cons, true_or, or_true], rfl⟩
  case throw => exact .inl ⟨str! "Throw", by simp only [plainVariants, List.mem_cons, true_or, or_true], rfl⟩
  case map => exact .inl ⟨str! "Map", by simp only [plainVariants, List.mem_cons, true_or, or_true], rfl⟩
  case scillaVersion => exact .inl ⟨str! "ScillaVersion", by simp only [plainVariants, List.mem_cons, true_or, or_true], rfl⟩
  case type => exact .inl ⟨str! "Type", by simp only [plainVariants, List.mem_cons, true_or, or_true], rfl⟩
  case of_ => exact .inl ⟨str! "Of", by simp only [plainVariants, List.mem_cons, true_or, or_true], rfl⟩
  case as_ => exact .inl ⟨str! "As", by simp only [plainVariants, List.mem_cons, true_or, or_true], rfl⟩
  case procedure => exact .inl ⟨str! "Procedure", by simp only [plainVariants, List.mem_cons, true_or, or_true], rfl⟩
  case emp => exact .inl ⟨str! "Emp", by simp only [plainVariants, List.mem_cons, true_or, or_true], rfl⟩
  case event => exact .inl ⟨str! "Event", by simp only [plainVariants, List.mem_cons, true_or, or_true], rfl⟩
  case eventType => exact .inl ⟨str! "EventType", by simp only [plainVariants, List.mem_cons, true_or, or_true], rfl⟩
  case byStr => exact .inl ⟨str! "ByStr", by simp only [plainVariants, List.mem_cons, true_or, or_true], rfl⟩
  case whitespace => exact .inl ⟨str! "Whitespace", by simp only [plainVariants, List.mem_cons, true_or, or_true], rfl⟩
  case unknown => exact .inl ⟨str! "Unknown", by simp only [plainVariants, List.mem_cons, true_or, or_true], rfl⟩
  case byStrWithSize s => exact .inr ⟨str! "ByStrWithSize", .byStrWithSize, s, by simp only [textVariants, List.mem_cons, true_or, or_true], rfl, by simp [Token.debug]⟩
  case comment s => exact .inr ⟨str! "Comment", .comment, s, by simp only [textVariants, List.mem_cons, true_or, or_true], rfl, by simp [Token.debug]⟩
  case number s => exact .inr ⟨str! "Number", .number, s, by simp only [textVariants, List.mem_cons, true_or, or_true], rfl, by simp [Token.debug]⟩
  case hexNumber s => exact .inr ⟨str! "HexNumber", .hexNumber, s, by simp only [textVariants, List.mem_cons, true_or, or_true], rfl, by simp [Token.debug]⟩
  case identifier s => exact .inr ⟨str! "Identifier", .identifier, s, by simp only [textVariants, List.mem_cons, true_or, or_true], rfl, by simp [Token.debug]⟩
  case templateIdentifier s => exact .inr ⟨str! "TemplateIdentifier", .templateIdentifier, s, by simp only [textVariants, List.mem_cons, true_or, or_true], rfl, by simp [Token.debug]⟩
  case customIdentifier s => exact .inr ⟨str! "CustomIdentifier", .customIdentifier, s, by simp only [textVariants, List.mem_cons, true_or, or_true], rfl, by simp [Token.debug]⟩
  case specialIdentifier s => exact .inr ⟨str! "SpecialIdentifier", .specialIdentifier, s, by simp only [textVariants, List.mem_cons, true_or, or_true], rfl, by simp [Token.debug]⟩
  case typeName s => exact .inr ⟨str! "TypeName", .typeName, s, by simp only [textVariants, List.mem_cons, true_or, or_true], rfl, by simp [Token.debug]⟩
  case stringLiteral s => exact .inr ⟨str! "StringLiteral", .stringLiteral, s, by simp only [textVariants, List.mem_cons, true_or, or_true], rfl, by simp [Token.debug]⟩

omit hesc in
theorem variants_nodup : (plainVariants.map (·.1) ++ textVariants.map (·.1)).Nodup := by decide +kernel

omit hesc in
theorem variants_alnum : ∀ n ∈ plainVariants.map (·.1) ++ textVariants.map (·.1), ∀ c ∈ n, c.isAlphanum = true := by
  decide +kernel

omit hesc in
theorem unique_of_nodup {α : Type} {l : List (Str × α)} (h : (l.map (·.1)).Nodup) {n : Str} {a b : α}
    (ha : (n, a) ∈ l) (hb : (n, b) ∈ l) : a = b := by
  induction l with
  | nil => cases ha
  | cons x l ih =>
    simp only [List.map_cons, List.nodup_cons] at h
    rcases List.mem_cons.1 ha with e1 | h1 <;> rcases List.mem_cons.1 hb with e2 | h2
    · rw [← e1] at e2; exact (Prod.mk.inj e2).2.symm
    · subst e1; exact absurd (List.mem_map.2 ⟨_, h2, rfl⟩) h.1
    · subst e2; exact absurd (List.mem_map.2 ⟨_, h1, rfl⟩) h.1
    · exact ih h.2 h1 h2

theorem Token.debug_inj {t u : Token} {x y : Str} (hx : Stops x) (hy : Stops y)
    (h : t.debug esc ++ x = u.debug esc ++ y) : t = u ∧ x = y := by
  have hn := variants_nodup
  rw [List.nodup_append] at hn
  obtain ⟨n1, n2, n3⟩ := hn
  have al := variants_alnum
  have mp : ∀ {n t}, (n, t) ∈ plainVariants → n ∈ plainVariants.map (·.1) := fun h => List.mem_map.2 ⟨_, h, rfl⟩
  have mt : ∀ {n f}, (n, f) ∈ textVariants → n ∈ textVariants.map (·.1) := fun h => List.mem_map.2 ⟨_, h, rfl⟩
  rcases Token.debug_forms (esc := esc) t with ⟨n, h1, e1⟩ | ⟨n, f, s, h1, e1, e1'⟩ <;>
    rcases Token.debug_forms (esc := esc) u with ⟨m, h2, e2⟩ | ⟨m, g, r, h2, e2, e2'⟩
  · rw [e1, e2] at h
    obtain ⟨rfl, h3⟩ := word_inj (al n (by simp only [List.mem_append]; exact .inl (mp h1)))
      (al m (by simp only [List.mem_append]; exact .inl (mp h2))) hx hy h
    exact ⟨unique_of_nodup n1 h1 h2, h3⟩
  · rw [e1, e2'] at h
    simp only [List.append_assoc, List.cons_append] at h
    obtain ⟨rfl, h⟩ := word_inj (al n (by simp only [List.mem_append]; exact .inl (mp h1)))
      (al m (by simp only [List.mem_append]; exact .inr (mt h2))) hx (by exact stops_cons rfl) h
    exact absurd rfl (n3 n (mp h1) n (mt h2))
  · rw [e1', e2] at h
    simp only [List.append_assoc, List.cons_append] at h
    obtain ⟨rfl, h⟩ := word_inj (al n (by simp only [List.mem_append]; exact .inr (mt h1)))
      (al m (by simp only [List.mem_append]; exact .inl (mp h2))) (by exact stops_cons rfl) hy h
    exact absurd rfl (n3 n (mp h2) n (mt h1))
  · rw [e1', e2'] at h
    simp only [List.append_assoc, List.cons_append] at h
    have h3 := word_inj (al n (by simp only [List.mem_append]; exact .inr (mt h1)))
      (al m (by simp only [List.mem_append]; exact .inr (mt h2))) (by exact stops_cons rfl) (by exact stops_cons rfl) h
    obtain ⟨rfl, h4⟩ := h3
    simp only [List.cons.injEq, true_and] at h4
    obtain ⟨rfl, h5⟩ := debugStr_inj hesc h4
    have := unique_of_nodup n2 h1 h2
    subst this
    exact ⟨by rw [e1, e2], by simpa using h5⟩

end
end Verif
