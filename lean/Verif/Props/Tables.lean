import Verif.Props.Rename
import Verif.Props.Errors
/-
C56: the Unicode tables.  `CharClass` stands for the tables of the Rust standard library that classify the
characters outside ASCII; they change from version to version.
-/
namespace Verif

/-- two classifications that agree on the non-ASCII characters of a text -/
def AgreeOn (U U' : CharClass) (s : Str) : Prop :=
  ∀ c ∈ s, 128 ≤ c.toNat → U.alnum c = U'.alnum c ∧ U.numeric c = U'.numeric c ∧ U.white c = U'.white c

theorem AgreeOn.of_ascii {U U' : CharClass} {s : Str} (h : Ascii s) : AgreeOn U U' s := fun c hc hn =>
  absurd (h c hc) (by omega)

theorem AgreeOn.char {U U' : CharClass} {s : Str} (h : AgreeOn U U' s) {c : Char} (hc : c ∈ s) :
    U.isWhite c = U'.isWhite c ∧ U.isNumeric c = U'.isNumeric c ∧ U.isIdent c = U'.isIdent c := by
  by_cases ha : c.toNat < 128
  · simp [CharClass.isWhite, CharClass.isNumeric, CharClass.isIdent, CharClass.isAlnum, isAscii, ha]
  · obtain ⟨h1, h2, h3⟩ := h c hc (by omega)
    simp [CharClass.isWhite, CharClass.isNumeric, CharClass.isIdent, CharClass.isAlnum, isAscii, ha, h1, h2, h3]

theorem AgreeOn.suffix {U U' : CharClass} {s t : Str} (h : AgreeOn U U' s) (hs : t <:+ s) : AgreeOn U U' t :=
  fun c hc => h c (hs.subset hc)

theorem all_congr {p q : Char → Bool} {s : Str} (h : ∀ c ∈ s, p c = q c) :
    s.all p = s.all q ∧ s.takeWhile p = s.takeWhile q := by
  induction s with
  | nil => exact ⟨rfl, rfl⟩
  | cons c s ih =>
    have := ih fun c hc => h c (List.mem_cons_of_mem _ hc)
    rw [List.all_cons, List.all_cons, List.takeWhile_cons, List.takeWhile_cons, h c (by simp), this.1, this.2]
    exact ⟨rfl, rfl⟩

theorem scanWord_agree {U U' : CharClass} {s : Str} (h : AgreeOn U U' s) : scanWord U s = scanWord U' s := by
  have hc := all_congr (p := U.isIdent) (q := U'.isIdent) (s := s) fun c hc => (h.char hc).2.2
  have hw : wordIndex U s = wordIndex U' s := by rw [wordIndex, wordIndex, hc.1, hc.2]
  have hk : keywordSlice U s = keywordSlice U' s := by rw [keywordSlice, keywordSlice, hw]
  rw [scanWord, scanWord, hk]

theorem head_congr {p q : Char → Bool} {s : Str} (h : ∀ c ∈ s, p c = q c) :
    (s.head?.map p).getD false = (s.head?.map q).getD false := by
  cases s with
  | nil => rfl
  | cons c s => simp [h c (by simp)]

theorem scan_agree {U U' : CharClass} {ch : Char} {r : Str} (h : AgreeOn U U' (ch :: r)) :
    scan U ch r = scan U' ch r := by
  have hr : AgreeOn U U' r := h.suffix (List.suffix_cons _ _)
  unfold scan
  rw [(h.char (by simp : ch ∈ ch :: r)).1, scanWord_agree h,
    head_congr (p := U.isNumeric) (q := U'.isNumeric) fun c hc => (hr.char hc).2.1,
    head_congr (p := U.isIdent) (q := U'.isIdent) fun c hc => (hr.char hc).2.2]

theorem lexStep_agree {U U' : CharClass} {σ : LexState} (h : AgreeOn U U' σ.rest) :
    lexStep U σ = lexStep U' σ := by
  unfold lexStep
  cases hr : σ.rest with
  | nil => rfl
  | cons ch r =>
    rw [hr] at h
    simp only [scan_agree h]

theorem lexStep_rest {U : CharClass} {σ σ' : LexState} {t : STok}
    (h : lexStep U σ = .skip σ' ∨ lexStep U σ = .yield t σ') : σ'.rest <:+ σ.rest := by
  unfold lexStep at h
  cases hr : σ.rest with
  | nil => rw [hr] at h; simp at h
  | cons ch r =>
    rw [hr] at h
    have key : ∀ k, r.drop k <:+ ch :: r := fun k => (List.drop_suffix k r).trans (List.suffix_cons ch r)
    simp only at h
    cases hs : scan U ch r with
    | white =>
      simp only [hs] at h
      split at h <;> simp at h <;> subst h <;> exact key 0
    | comment k => simp [hs] at h; subst h; exact key k
    | token t l k => simp [hs] at h; rw [← h.2]; exact key k
    | panic => simp [hs] at h

theorem drain_agree {U U' : CharClass} (σ : LexState) (h : AgreeOn U U' σ.rest) :
    drain U σ = drain U' σ ∧ tokensFrom U σ = tokensFrom U' σ := by
  generalize hn : σ.rest.length = n
  induction n using Nat.strongRecOn generalizing σ with
  | _ n ih =>
    rw [drain_eq, drain_eq U' σ, tokensFrom_step, tokensFrom_step U' σ, ← lexStep_agree h]
    cases hs : lexStep U σ with
    | eof => exact ⟨rfl, rfl⟩
    | panic => exact ⟨rfl, rfl⟩
    | skip σ' =>
      exact ih _ (hn ▸ lexStep_skip_lt hs) σ' (h.suffix (lexStep_rest (t := ⟨⟨0, 0, 0⟩, .unknown, ⟨0, 0, 0⟩⟩) (.inl hs))) rfl
    | yield t σ' =>
      obtain ⟨h1, h2⟩ := ih _ (hn ▸ lexStep_yield_lt hs) σ' (h.suffix (lexStep_rest (.inr hs))) rfl
      simp only [h1, h2, and_self]

/-- C56: the tokens and the result of a document depend on the Unicode tables only through the characters it
contains. -/
theorem C56_tables (env : Env) (U' : CharClass) (doc : Str) (h : AgreeOn env.chars U' doc) :
    lexDoc env.chars doc = lexDoc U' doc ∧ yielded env.chars doc = yielded U' doc ∧
      fromStr env doc = fromStr { env with chars := U' } doc := by
  obtain ⟨h1, h2⟩ := drain_agree (.init doc) h
  have h1' : lexDoc env.chars doc = lexDoc U' doc := h1
  have h2' : yielded env.chars doc = yielded U' doc := h2
  refine ⟨h1', h2', ?_⟩
  cases hl : lexDoc U' doc with
  | none =>
    simp only [fromStr, h1', hl]
    by_cases hv : Viable (yielded U' doc)
    · rw [if_pos hv, if_pos (h2' ▸ hv)]
    · rw [if_neg hv, if_neg (h2' ▸ hv), h2']
  | some ts => simp only [fromStr, h1', hl]

/-- C56: the tokens and the result of an ASCII document do not depend on the Unicode tables. -/
theorem C56_ascii (env : Env) (U' : CharClass) (doc : Str) (h : Ascii doc) :
    lexDoc env.chars doc = lexDoc U' doc ∧ fromStr env doc = fromStr { env with chars := U' } doc :=
  ⟨(C56_tables env U' doc (.of_ascii h)).1, (C56_tables env U' doc (.of_ascii h)).2.2⟩

/-- A text with a letter outside ASCII, and two tables that agree on it though not everywhere. -/
example : AgreeOn demoU ⟨fun c => c == 'ß', fun _ => false, fun c => c == 'ß'⟩
      (str! "scilla_version 0 (* é *) contract C ()") ∧
    demoU.isIdent 'ß' ≠ (⟨fun c => c == 'ß', fun _ => false, fun c => c == 'ß'⟩ : CharClass).isIdent 'ß' ∧
    fromStr demoEnv (str! "scilla_version 0 (* é *) contract C ()") = .ok ⟨str! "C", [], [], []⟩ :=
  ⟨by unfold AgreeOn; decide, by decide, by decide +kernel⟩

/-- The tables do matter for the characters that are there: whether U+00A0 is a space decides whether this is a
contract. -/
theorem C56_needed : ∃ (U U' : CharClass) (doc : Str), fromStr { demoEnv with chars := U } doc ≠
    fromStr { demoEnv with chars := U' } doc := by
  refine ⟨demoU, ⟨fun _ => false, fun _ => false, fun c => c == '\u00A0'⟩, str! "scilla_version\u00A00 contract C ()", ?_⟩
  have h : fromStr { demoEnv with chars := demoU } (str! "scilla_version\u00A00 contract C ()") =
      .err (.parseError []) := by decide +kernel
  have h' : fromStr { demoEnv with chars := ⟨fun _ => false, fun _ => false, fun c => c == '\u00A0'⟩ }
      (str! "scilla_version\u00A00 contract C ()") = .ok ⟨str! "C", [], [], []⟩ := by decide +kernel
  rw [h, h']; simp

end Verif
