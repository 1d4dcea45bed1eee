import Verif.Model.Lexer
import Verif.Spec.Lexical
/-
Helper lemmas about one lexer step.
-/
namespace Verif

@[simp] theorem bytes_nil : bytes [] = 0 := rfl
@[simp] theorem bytes_cons (c : Char) (s : Str) : bytes (c :: s) = c.utf8Size + bytes s := rfl

theorem bytes_append (a b : Str) : bytes (a ++ b) = bytes a + bytes b := by
  induction a with
  | nil => simp
  | cons c a ih => simp [ih]; omega

theorem length_le_bytes (s : Str) : s.length ≤ bytes s := by
  induction s with
  | nil => simp
  | cons c s ih => have := c.utf8Size_pos; simp; omega

theorem bytes_pos {s : Str} (h : s ≠ []) : 0 < bytes s := by
  cases s with
  | nil => exact absurd rfl h
  | cons c s => have := c.utf8Size_pos; simp; omega

theorem utf8Size_ascii {c : Char} (h : isAscii c = true) : c.utf8Size = 1 := by
  simp [isAscii] at h
  have h2 : c.val.toNat ≤ 127 := by
    have : c.toNat = c.val.toNat := rfl
    omega
  unfold Char.utf8Size
  rw [if_pos]
  exact UInt32.le_iff_toNat_le.mpr (by simpa using h2)

theorem bytes_ascii {s : Str} (h : ∀ c ∈ s, isAscii c = true) : bytes s = s.length := by
  induction s with
  | nil => rfl
  | cons c s ih =>
    simp only [bytes_cons, List.length_cons]
    rw [utf8Size_ascii (h c (by simp)), ih (fun d hd => h d (by simp [hd]))]
    omega

theorem sliceTo_some {s : Str} {n : Nat} {p : Str} (h : sliceTo s n = some p) :
    p <+: s ∧ bytes p = n := by
  induction s generalizing n p with
  | nil =>
    cases n with
    | zero => simp [sliceTo] at h; subst h; simp
    | succ n => simp [sliceTo] at h
  | cons c s ih =>
    cases n with
    | zero => simp [sliceTo] at h; subst h; simp
    | succ n =>
      simp only [sliceTo] at h
      split at h
      · rename_i hle
        simp only [Option.map_eq_some_iff] at h
        obtain ⟨a, ha, rfl⟩ := h
        obtain ⟨h1, h2⟩ := ih ha
        refine ⟨List.cons_prefix_cons.mpr ⟨rfl, h1⟩, ?_⟩
        simp; omega
      · simp at h

theorem sliceTo_prefix {p q : Str} : sliceTo (p ++ q) (bytes p) = some p := by
  induction p with
  | nil => cases q <;> simp [sliceTo]
  | cons c p ih =>
    have := c.utf8Size_pos
    obtain ⟨k, hk⟩ : ∃ k, c.utf8Size + bytes p = k + 1 := ⟨c.utf8Size + bytes p - 1, by omega⟩
    simp only [List.cons_append, bytes_cons, hk, sliceTo]
    rw [if_pos (by omega)]
    have : k + 1 - c.utf8Size = bytes p := by omega
    rw [this, ih]; rfl

/-! ### matchers return non-empty prefixes -/

theorem takeWhile_prefix' (p : Char → Bool) (s : Str) : s.takeWhile p <+: s :=
  List.takeWhile_prefix p

theorem matchInteger_spec {s m : Str} (h : matchInteger s = some m) : m <+: s ∧ m ≠ [] := by
  cases s with
  | nil => simp [matchInteger] at h
  | cons c s =>
    simp only [matchInteger] at h
    split at h
    · split at h
      · simp at h
      · simp at h; subst h
        exact ⟨List.cons_prefix_cons.mpr ⟨rfl, takeWhile_prefix' _ _⟩, by simp⟩
    · split at h
      · simp at h
      · rename_i hne
        simp at h; subst h
        exact ⟨takeWhile_prefix' _ _, hne⟩

theorem hexPairs_prefix (s : Str) : hexPairs s <+: s := by
  fun_induction hexPairs s with
  | case1 a b s h ih =>
    exact List.cons_prefix_cons.mpr ⟨rfl, List.cons_prefix_cons.mpr ⟨rfl, ih⟩⟩
  | case2 a b s h => simp
  | case3 => simp

theorem matchHex_spec {s m : Str} (h : matchHex s = some m) : m <+: s ∧ m ≠ [] := by
  unfold matchHex at h
  split at h
  · split at h
    · simp at h; subst h
      refine ⟨?_, by simp⟩
      exact List.cons_prefix_cons.mpr ⟨rfl, List.cons_prefix_cons.mpr ⟨rfl, hexPairs_prefix _⟩⟩
    · simp at h
  · simp at h

theorem stringBody_prefix {s m : Str} (h : stringBody s = some m) : m <+: s ∧ m ≠ [] := by
  fun_induction stringBody s generalizing m with
  | case1 => simp at h
  | case2 c s hc =>
    simp at h; subst h; simp at hc; subst hc
    exact ⟨List.cons_prefix_cons.mpr ⟨rfl, List.nil_prefix⟩, by simp⟩
  | case3 c h1 h2 d s' h3 ih =>
    simp only [Option.map_eq_some_iff] at h
    obtain ⟨a, ha, rfl⟩ := h
    exact ⟨List.cons_prefix_cons.mpr ⟨rfl, (ih ha).1⟩, by simp⟩
  | case4 c h1 h2 d s' h3 m' hm ih =>
    simp at h; subst h
    exact ⟨List.cons_prefix_cons.mpr ⟨rfl, List.cons_prefix_cons.mpr ⟨rfl, (ih hm).1⟩⟩, by simp⟩
  | case5 c h1 h2 d s' h3 hm ih1 ih2 =>
    simp only [Option.map_eq_some_iff] at h
    obtain ⟨a, ha, rfl⟩ := h
    exact ⟨List.cons_prefix_cons.mpr ⟨rfl, (ih2 ha).1⟩, by simp⟩
  | case6 => simp at h
  | case7 c s h1 h2 ih =>
    simp only [Option.map_eq_some_iff] at h
    obtain ⟨a, ha, rfl⟩ := h
    exact ⟨List.cons_prefix_cons.mpr ⟨rfl, (ih ha).1⟩, by simp⟩

theorem matchString_spec {s m : Str} (h : matchString s = some m) : m <+: s ∧ m ≠ [] := by
  unfold matchString at h
  split at h
  · simp only [Option.map_eq_some_iff] at h
    obtain ⟨a, ha, rfl⟩ := h
    exact ⟨List.cons_prefix_cons.mpr ⟨rfl, (stringBody_prefix ha).1⟩, by simp⟩
  · simp at h

theorem matchRegularId_spec {s m : Str} (h : matchRegularId s = some m) : m <+: s ∧ m ≠ [] := by
  unfold matchRegularId at h
  split at h
  · split at h
    · simp at h; subst h
      exact ⟨List.cons_prefix_cons.mpr ⟨rfl, takeWhile_prefix' _ _⟩, by simp⟩
    · simp at h
  · simp at h

theorem matchTemplateId_spec {s m : Str} (h : matchTemplateId s = some m) : m <+: s ∧ m ≠ [] := by
  unfold matchTemplateId at h
  split at h
  · split at h
    · simp at h; subst h
      exact ⟨List.cons_prefix_cons.mpr ⟨rfl, List.cons_prefix_cons.mpr
        ⟨rfl, takeWhile_prefix' _ _⟩⟩, by simp⟩
    · simp at h
  · simp at h

theorem matchCustomId_spec {s m : Str} (h : matchCustomId s = some m) : m <+: s ∧ m ≠ [] := by
  unfold matchCustomId at h
  split at h
  · split at h
    · simp at h; subst h
      exact ⟨List.cons_prefix_cons.mpr ⟨rfl, takeWhile_prefix' _ _⟩, by simp⟩
    · simp at h
  · simp at h

theorem matchSpecialId_spec {s m : Str} (h : matchSpecialId s = some m) : m <+: s ∧ m ≠ [] := by
  unfold matchSpecialId at h
  split at h
  · simp at h; subst h
    exact ⟨List.cons_prefix_cons.mpr ⟨rfl, takeWhile_prefix' _ _⟩, by simp⟩
  · simp at h

theorem matchByStrSize_spec {s m : Str} (h : matchByStrSize s = some m) : m <+: s ∧ m ≠ [] := by
  unfold matchByStrSize at h
  split at h
  · split at h
    · simp at h
    · simp at h; subst h
      refine ⟨?_, by simp⟩
      simp only [List.cons_prefix_cons, true_and]
      exact takeWhile_prefix' _ _
  · simp at h

/-- What a token-producing scan means for the text: `m` is the lexeme. -/
structure Lexeme (t : Token) (s m : Str) (len extra : Nat) : Prop where
  pre : m <+: s
  len_eq : bytes m = len
  text : t ≠ .unknown → m = t.text ∧ m ≠ [] ∧ extra + 1 = bytes m
  unknown : t = .unknown → m = [] ∧ extra = 0

theorem lexeme_regex {t : Token} {s m : Str} (hm : m <+: s ∧ m ≠ []) (ht : t.text = m)
    (hu : t ≠ .unknown) : Lexeme t s m (bytes m) (bytes m - 1) where
  pre := hm.1
  len_eq := rfl
  text := fun _ => ⟨ht.symm, hm.2, by have := bytes_pos hm.2; omega⟩
  unknown := fun h => absurd h hu

theorem scanOther_lexeme {s : Str} {t : Token} {len extra : Nat}
    (h : scanOther s = .token t len extra) : ∃ m, Lexeme t s m len extra := by
  unfold scanOther regexToken at h
  repeat' split at h
  all_goals (first | (injection h with h1 h2 h3; subst h1 h2 h3) | skip)
  case h_1 m hm => exact ⟨m, lexeme_regex (matchByStrSize_spec hm) rfl (by simp)⟩
  case h_2.isTrue h =>
    unfold startsByStr at h
    split at h
    · refine ⟨_, lexeme_regex (m := str! "ByStr") ⟨?_, by simp⟩ rfl (by simp)⟩
      simp [List.cons_prefix_cons]
    · simp at h
  all_goals rename_i m hm
  · exact ⟨m, lexeme_regex (matchHex_spec hm) rfl (by simp)⟩
  · exact ⟨m, lexeme_regex (matchInteger_spec hm) rfl (by simp)⟩
  · exact ⟨m, lexeme_regex (matchString_spec hm) rfl (by simp)⟩
  · exact ⟨m, lexeme_regex (matchRegularId_spec hm) rfl (by simp)⟩
  · exact ⟨m, lexeme_regex (matchTemplateId_spec hm) rfl (by simp)⟩
  · exact ⟨m, lexeme_regex (matchCustomId_spec hm) rfl (by simp)⟩
  · exact ⟨m, lexeme_regex (matchSpecialId_spec hm) rfl (by simp)⟩
  · exact ⟨[], ⟨List.nil_prefix, rfl, by simp, by simp⟩⟩

theorem scanOther_not {s : Str} : scanOther s ≠ .white ∧ (∀ n, scanOther s ≠ .comment n) ∧
    scanOther s ≠ .panic := by
  unfold scanOther regexToken
  repeat' split
  all_goals simp

/-- the lexer's table is the specified one -/
theorem keywordTable_spec : (∀ p ∈ keywordSpellings, p ∈ keywordTable) ∧ ∀ p ∈ keywordTable, p ∈ keywordSpellings := by
  decide

theorem mem_keywords {s : Str} : s ∈ keywords ↔ s ∈ keywordTable.map (·.1) := by
  simp only [keywords, List.mem_map]
  constructor
  · rintro ⟨p, hp, rfl⟩; exact ⟨p, keywordTable_spec.1 p hp, rfl⟩
  · rintro ⟨p, hp, rfl⟩; exact ⟨p, keywordTable_spec.2 p hp, rfl⟩

theorem keywordTable_text : ∀ p ∈ keywordTable, p.2.text = p.1 ∧ p.2 ≠ .unknown ∧ p.1 ≠ [] ∧
    ∀ c ∈ p.1, isAscii c = true := by decide

theorem lookup_mem {α β : Type} [BEq α] [LawfulBEq α] {l : List (α × β)} {a : α} {b : β}
    (h : l.lookup a = some b) : (a, b) ∈ l := by
  induction l with
  | nil => simp at h
  | cons p l ih =>
    obtain ⟨x, y⟩ := p
    rw [List.lookup_cons] at h
    split at h
    · rename_i hax
      simp at h hax; subst h hax; simp
    · exact List.mem_cons_of_mem _ (ih h)

theorem lookupKeyword_mem {s : Str} {t : Token} (h : lookupKeyword s = some t) :
    (s, t) ∈ keywordTable := lookup_mem h

theorem keywordSlice_prefix {U : CharClass} {s kw : Str} (h : keywordSlice U s = some kw) :
    kw <+: s := by
  unfold keywordSlice at h
  split at h
  · exact (sliceTo_some h).1
  · simp at h; subst h; exact List.prefix_refl _

theorem scanWord_lexeme {U : CharClass} {s : Str} {t : Token} {len extra : Nat}
    (h : scanWord U s = .token t len extra) : ∃ m, Lexeme t s m len extra := by
  unfold scanWord at h
  split at h
  · simp at h
  · rename_i kw hkw
    split at h
    · rename_i t' ht
      injection h with h1 h2 h3
      subst h1 h2 h3
      obtain ⟨ht1, ht2, ht3, _⟩ := keywordTable_text _ (lookupKeyword_mem ht)
      exact ⟨kw, lexeme_regex ⟨keywordSlice_prefix hkw, ht3⟩ ht1 ht2⟩
    · exact scanOther_lexeme h

theorem singleTok_text {c : Char} {t : Token} (h : singleTok c = some t) :
    t.text = [c] ∧ t ≠ .unknown ∧ isAscii c = true := by
  unfold singleTok at h
  split at h <;> first | (injection h with h; subst h; decide) | simp at h

theorem head?_prefix {a b : Char} {r : Str} (h : r.head? = some b) : [a, b] <+: a :: r := by
  cases r with
  | nil => simp at h
  | cons c r => simp at h; subst h; simp [List.cons_prefix_cons]

theorem scan_lexeme {U : CharClass} {ch : Char} {r : Str} {t : Token} {len extra : Nat}
    (h : scan U ch r = .token t len extra) : ∃ m, Lexeme t (ch :: r) m len extra := by
  unfold scan at h
  repeat' split at h
  all_goals (first | contradiction | (injection h with h1 h2 h3; subst h1 h2 h3) | skip)
  case isFalse.isTrue hc =>
    simp only [Bool.and_eq_true, beq_iff_eq] at hc
    obtain ⟨rfl, hc⟩ := hc
    exact ⟨_, lexeme_regex (m := ['=', '>']) ⟨head?_prefix hc, by simp⟩ rfl (by simp)⟩
  case isFalse.isFalse.isTrue hc =>
    simp only [Bool.and_eq_true, beq_iff_eq] at hc
    obtain ⟨rfl, hc⟩ := hc
    exact ⟨_, lexeme_regex (m := ['-', '>']) ⟨head?_prefix hc, by simp⟩ rfl (by simp)⟩
  case isFalse.isFalse.isFalse.isTrue hc =>
    simp only [Bool.and_eq_true, beq_iff_eq] at hc
    obtain ⟨rfl, hc⟩ := hc
    exact ⟨_, lexeme_regex (m := ['-']) ⟨by simp [List.cons_prefix_cons], by simp⟩ rfl (by simp)⟩
  case isFalse.isFalse.isFalse.isFalse.isTrue hc =>
    simp only [Bool.and_eq_true, beq_iff_eq] at hc
    obtain ⟨rfl, hc⟩ := hc
    exact ⟨_, lexeme_regex (m := ['<', '-']) ⟨head?_prefix hc, by simp⟩ rfl (by simp)⟩
  case isFalse.isFalse.isFalse.isFalse.isFalse.isTrue hc =>
    simp only [Bool.and_eq_true, beq_iff_eq] at hc
    obtain ⟨rfl, hc⟩ := hc
    exact ⟨_, lexeme_regex (m := [':', '=']) ⟨head?_prefix hc, by simp⟩ rfl (by simp)⟩
  case isFalse.isFalse.isFalse.isFalse.isFalse.isFalse.isTrue hc =>
    simp only [Bool.and_eq_true, beq_iff_eq] at hc
    obtain ⟨rfl, hc⟩ := hc
    exact ⟨_, lexeme_regex (m := ['_']) ⟨by simp [List.cons_prefix_cons], by simp⟩ rfl (by simp)⟩
  case h_1 t' hs =>
    obtain ⟨h1, h2, h3⟩ := singleTok_text hs
    have := lexeme_regex (t := t') (s := ch :: r) (m := [ch])
      ⟨by simp [List.cons_prefix_cons], by simp⟩ h1 h2
    simp [utf8Size_ascii h3] at this
    exact ⟨_, this⟩
  case h_2 => exact scanWord_lexeme h

end Verif
