import Verif.Props.Display
/-
Unique readability of the displayed text of a type.
-/
namespace Verif

/-- what can follow a displayed type inside a larger one -/
def AfterTy (r : Str) : Prop :=
  r = [] ∨ (∃ q, r = ')' :: q) ∨ (∃ q, r = ',' :: q) ∨ ∃ q, r = ' ' :: q ∧ q.head? ≠ some 'w'

theorem AfterTy.stop {r : Str} (h : AfterTy r) : ∀ c, r.head? = some c → isWord c = false := by
  rcases h with rfl | ⟨q, rfl⟩ | ⟨q, rfl⟩ | ⟨q, rfl, -⟩ <;> simp <;> decide

theorem word_split {w w' r r' : Str} (hw : ∀ c ∈ w, isWord c = true) (hw' : ∀ c ∈ w', isWord c = true)
    (hr : ∀ c, r.head? = some c → isWord c = false) (hr' : ∀ c, r'.head? = some c → isWord c = false)
    (h : w ++ r = w' ++ r') : w = w' ∧ r = r' := by
  have h1 := takeWhile_append_stop hw hr
  have h2 := takeWhile_append_stop hw' hr'
  rw [h, h2] at h1
  subst h1
  exact ⟨rfl, List.append_cancel_left h⟩

/-- a type displayed as one word -/
structure NameLike (t : Ty) : Prop where
  word : ∀ c ∈ t.display, isWord c = true
  upper : ∃ c w, t.display = c :: w ∧ isUpper c = true
  means : namedType t.display [] = some t.canon

theorem nameLike {t : Ty} (h : t.nameTok.isSome = true) (hw : t.Writable) : NameLike t := by
  cases t <;> simp only [Ty.nameTok, Option.isSome_none, Bool.false_eq_true] at h
  case byStrX n =>
    simp only [Ty.Writable] at hw
    refine ⟨fun c hc => ?_, ⟨'B', _, rfl, by decide⟩, ?_⟩
    case refine_2 =>
      simp only [Ty.canon]
      split
      · rename_i h; subst h; rfl
      · exact namedType_byStrX hw (by assumption)
    simp only [Ty.display] at hc
    rcases List.mem_append.1 hc with hc | hc
    · exact (by decide : ∀ c ∈ str! "ByStr", isWord c = true) c hc
    · have := (natDigits_value n).2.1 c hc
      simp only [isDec] at this
      simp only [isWord, isDigit, this, Bool.or_true, Bool.true_or]
  case other s =>
    simp only [Ty.Writable, Printable, WellFormed] at hw
    rcases hw with ⟨⟨⟨c, w, rfl, h1, h2, h3⟩, -, h5⟩, h6⟩ | ⟨⟨ds, rfl, -, hd⟩, hl⟩
    case inr =>
      refine ⟨fun d hd' => ?_, ⟨'B', _, rfl, by decide⟩, (namedType_huge hd hl).2⟩
      simp only [Ty.display] at hd'
      rcases List.mem_append.1 hd' with hc | hc
      · exact (by decide : ∀ c ∈ str! "ByStr", isWord c = true) d hc
      · have := isDigit_iff.2 (hd d hc)
        simp only [isWord, this, Bool.or_true, Bool.true_or]
    have hu : isUpper c = true := isUpper_iff.2 ⟨h1, h2⟩
    refine ⟨fun d hd => ?_, ⟨c, w, rfl, hu⟩, namedType_other h6 h5⟩
    simp only [Ty.display] at hd
    rcases List.mem_cons.1 hd with rfl | hd
    · simp [isWord, hu]
    · exact isWord_iff.2 (h3 d hd)
  all_goals exact ⟨by simp only [Ty.display]; decide, ⟨_, _, rfl, by decide⟩, by rfl⟩

theorem nameLike_inj {t u : Ty} (ht : NameLike t) (hu : NameLike u) {r r' : Str} (hr : AfterTy r)
    (hr' : AfterTy r') (h : t.display ++ r = u.display ++ r') : t.canon = u.canon ∧ r = r' := by
  obtain ⟨e, e'⟩ := word_split ht.word hu.word hr.stop hr'.stop h
  have h1 := ht.means
  rw [e, hu.means] at h1
  exact ⟨(Option.some.inj h1).symm, e'⟩

theorem nameLike_not_paren {t : Ty} (ht : NameLike t) {r q : Str} (h : t.display ++ r = '(' :: q) :
    False := by
  obtain ⟨c, w, e, hc⟩ := ht.upper
  rw [e] at h
  simp only [List.cons_append, List.cons.injEq] at h
  rw [h.1] at hc
  exact absurd hc (by decide)

theorem nameLike_not_address {t : Ty} (ht : NameLike t) {r q : Str} (hr : AfterTy r)
    (h : t.display ++ r = str! "ByStr20" ++ (' ' :: 'w' :: q)) : False := by
  obtain ⟨-, e⟩ := word_split ht.word (by decide) hr.stop (by simp; decide) h
  rw [e] at hr
  rcases hr with h | ⟨_, h⟩ | ⟨_, h⟩ | ⟨_, h, h'⟩
  · simp at h
  · simp at h
  · simp at h
  · simp only [List.cons.injEq, true_and] at h
    subst h
    simp at h'

/-- a displayed type does not start with `w` -/
theorem display_head {t : Ty} (hw : t.Writable) (q : Str) : (t.display ++ q).head? ≠ some 'w' := by
  cases hn : t.nameTok with
  | some k =>
    obtain ⟨c, w, e, hc⟩ := (nameLike (by rw [hn]; rfl) hw).upper
    rw [e]
    simp only [List.cons_append, List.head?_cons, ne_eq, Option.some.injEq]
    rintro rfl
    exact absurd hc (by decide)
  | none => cases t <;> simp [Ty.nameTok] at hn <;> simp [Ty.display]

theorem tag_split {tag tag' : Str} {fs gs : List Field} {r r' : Str}
    (h : tag = str! "contract" ∨
      (fs = [] ∧ (tag = [] ∨ tag = str! "library" ∨ Printable (.specialIdentifier tag))))
    (h' : tag' = str! "contract" ∨
      (gs = [] ∧ (tag' = [] ∨ tag' = str! "library" ∨ Printable (.specialIdentifier tag'))))
    (e : tag ++ (displayFields fs ++ (str! " end" ++ r)) =
      tag' ++ (displayFields gs ++ (str! " end" ++ r'))) :
    tag = tag' ∧ displayFields fs ++ (str! " end" ++ r) = displayFields gs ++ (str! " end" ++ r') := by
  have key : ∀ (tag : Str) (fs : List Field) (r : Str), (tag = str! "contract" ∨
      (fs = [] ∧ (tag = [] ∨ tag = str! "library" ∨ Printable (.specialIdentifier tag)))) →
      ∃ w q, tag ++ (displayFields fs ++ (str! " end" ++ r)) = w ++ (' ' :: q) ∧
        (∀ c ∈ w, isWord c = true) ∧
        tag = if w = str! "contractfield" then str! "contract" else w := by
    intro tag fs r h
    have hs : tag = str! "contract" ∨ tag = [] ∨ tag = str! "library" ∨
        Printable (.specialIdentifier tag) := by
      rcases h with h | ⟨-, h⟩
      · exact .inl h
      · exact .inr h
    have hwd : (∀ c ∈ tag, isWord c = true) ∧ tag ≠ str! "contractfield" := by
      rcases hs with rfl | rfl | rfl | ⟨⟨w, rfl, hw⟩, -⟩
      · exact ⟨by decide, by decide⟩
      · exact ⟨by decide, by decide⟩
      · exact ⟨by decide, by decide⟩
      · refine ⟨fun c hc => ?_, by simp⟩
        rcases List.mem_cons.1 hc with rfl | hc
        · decide
        · exact isWord_iff.2 (hw c hc)
    match fs with
    | [] => exact ⟨tag, _, rfl, hwd.1, by rw [if_neg hwd.2]⟩
    | ⟨x, t⟩ :: fs =>
      rcases h with rfl | ⟨h, -⟩
      · cases fs with
        | nil => exact ⟨str! "contractfield", _, by simp [displayFields]; rfl, by decide, by simp⟩
        | cons f fs => exact ⟨str! "contractfield", _, by simp [displayFields]; rfl, by decide, by simp⟩
      · simp at h
  obtain ⟨w, q, e1, hw, t1⟩ := key tag fs r h
  obtain ⟨w', q', e2, hw', t2⟩ := key tag' gs r' h'
  have : tag = tag' := by
    rw [e1, e2] at e
    obtain ⟨rfl, -⟩ := word_split hw hw' (by simp; decide) (by simp; decide) e
    rw [t1, t2]
  subst this
  exact ⟨rfl, List.append_cancel_left e⟩

mutual
theorem display_unique : ∀ (t u : Ty) (r r' : Str), t.Writable → u.Writable → AfterTy r → AfterTy r' →
    t.display ++ r = u.display ++ r' → t.canon = u.canon ∧ r = r'
  | t, u, r, r', ht, hu, hr, hr', h => by
    cases hnt : t.nameTok with
    | some k =>
      have nt := nameLike (by rw [hnt]; rfl) ht
      cases hnu : u.nameTok with
      | some k' => exact nameLike_inj nt (nameLike (by rw [hnu]; rfl) hu) hr hr' h
      | none =>
        exfalso
        cases u <;> simp only [Ty.nameTok, reduceCtorEq] at hnu
        case byStr20With tag fs => exact nameLike_not_address nt hr (by simpa [Ty.display] using h)
        all_goals exact nameLike_not_paren nt (by simpa [Ty.display] using h)
    | none =>
      cases hnu : u.nameTok with
      | some k' =>
        exfalso
        have nu := nameLike (by rw [hnu]; rfl) hu
        cases t <;> simp only [Ty.nameTok, reduceCtorEq] at hnt
        case byStr20With tag fs => exact nameLike_not_address nu hr' (by simpa [Ty.display] using h.symm)
        all_goals exact nameLike_not_paren nu (by simpa [Ty.display] using h.symm)
      | none =>
        match t, u with
        | .option a, .option b =>
          simp only [Ty.Writable] at ht hu
          obtain ⟨c1, e⟩ := display_unique a b (')' :: r) (')' :: r') ht hu (.inr (.inl ⟨_, rfl⟩))
            (.inr (.inl ⟨_, rfl⟩)) (by simpa [Ty.display] using h)
          exact ⟨by simp only [Ty.canon, *], by simpa using e⟩
        | .list a, .list b =>
          simp only [Ty.Writable] at ht hu
          obtain ⟨c1, e⟩ := display_unique a b (')' :: r) (')' :: r') ht hu (.inr (.inl ⟨_, rfl⟩))
            (.inr (.inl ⟨_, rfl⟩)) (by simpa [Ty.display] using h)
          exact ⟨by simp only [Ty.canon, *], by simpa using e⟩
        | .pair a b, .pair c d =>
          simp only [Ty.Writable] at ht hu
          obtain ⟨c1, e⟩ := display_unique a c (' ' :: (b.display ++ ')' :: r))
            (' ' :: (d.display ++ ')' :: r')) ht.1 hu.1
            (.inr (.inr (.inr ⟨_, rfl, display_head ht.2 _⟩)))
            (.inr (.inr (.inr ⟨_, rfl, display_head hu.2 _⟩))) (by simpa [Ty.display] using h)
          obtain ⟨c2, e⟩ := display_unique b d (')' :: r) (')' :: r') ht.2 hu.2 (.inr (.inl ⟨_, rfl⟩))
            (.inr (.inl ⟨_, rfl⟩)) (by simpa using e)
          exact ⟨by simp only [Ty.canon, *], by simpa using e⟩
        | .map a b, .map c d =>
          simp only [Ty.Writable] at ht hu
          obtain ⟨c1, e⟩ := display_unique a c (',' :: ' ' :: (b.display ++ ')' :: r))
            (',' :: ' ' :: (d.display ++ ')' :: r')) ht.2.1 hu.2.1
            (.inr (.inr (.inl ⟨_, rfl⟩)))
            (.inr (.inr (.inl ⟨_, rfl⟩))) (by simpa [Ty.display] using h)
          obtain ⟨c2, e⟩ := display_unique b d (')' :: r) (')' :: r') ht.2.2 hu.2.2 (.inr (.inl ⟨_, rfl⟩))
            (.inr (.inl ⟨_, rfl⟩)) (by simpa using e)
          exact ⟨by simp only [Ty.canon, *], by simpa using e⟩
        | .byStr20With tag fs, .byStr20With tag' gs =>
          simp only [Ty.Writable] at ht hu
          obtain ⟨rfl, e⟩ := tag_split ht.1 hu.1 (r := r) (r' := r') (by simpa [Ty.display] using h)
          obtain ⟨c1, e'⟩ := fields_unique fs gs r r' ht.2 hu.2 e
          exact ⟨by simp only [Ty.canon, c1], e'⟩
        | .option _, .list _ => simp [Ty.display] at h
        | .option _, .pair _ _ => simp [Ty.display] at h
        | .option _, .map _ _ => simp [Ty.display] at h
        | .option _, .byStr20With _ _ => simp [Ty.display] at h
        | .list _, .option _ => simp [Ty.display] at h
        | .list _, .pair _ _ => simp [Ty.display] at h
        | .list _, .map _ _ => simp [Ty.display] at h
        | .list _, .byStr20With _ _ => simp [Ty.display] at h
        | .pair _ _, .option _ => simp [Ty.display] at h
        | .pair _ _, .list _ => simp [Ty.display] at h
        | .pair _ _, .map _ _ => simp [Ty.display] at h
        | .pair _ _, .byStr20With _ _ => simp [Ty.display] at h
        | .map _ _, .option _ => simp [Ty.display] at h
        | .map _ _, .list _ => simp [Ty.display] at h
        | .map _ _, .pair _ _ => simp [Ty.display] at h
        | .map _ _, .byStr20With _ _ => simp [Ty.display] at h
        | .byStr20With _ _, .option _ => simp [Ty.display] at h
        | .byStr20With _ _, .list _ => simp [Ty.display] at h
        | .byStr20With _ _, .pair _ _ => simp [Ty.display] at h
        | .byStr20With _ _, .map _ _ => simp [Ty.display] at h
theorem fields_unique : ∀ (fs gs : List Field) (r r' : Str), fieldsWritable fs → fieldsWritable gs →
    displayFields fs ++ (str! " end" ++ r) = displayFields gs ++ (str! " end" ++ r') →
    fieldsCanon fs = fieldsCanon gs ∧ r = r'
  | [], [], r, r', _, _, h => ⟨rfl, by simpa [displayFields] using h⟩
  | [], [⟨x, t⟩], r, r', _, _, h => by simp [displayFields] at h
  | [], ⟨x, t⟩ :: _ :: _, r, r', _, _, h => by simp [displayFields] at h
  | [⟨x, t⟩], [], r, r', _, _, h => by simp [displayFields] at h
  | ⟨x, t⟩ :: _ :: _, [], r, r', _, _, h => by simp [displayFields] at h
  | ⟨x, t⟩ :: fs, ⟨y, u⟩ :: gs, r, r', h1, h2, h => by
    simp only [fieldsWritable] at h1 h2
    have key : ∀ (x : Str) (t : Ty) (fs : List Field) (r : Str), ∃ q,
        displayFields (⟨x, t⟩ :: fs) ++ (str! " end" ++ r) =
          str! "field " ++ (x ++ (str! ": " ++ (t.display ++ q))) ∧ AfterTy q ∧
        (fs = [] → q = str! " end" ++ r) ∧
        (fs ≠ [] → q = str! ", " ++ (displayFields fs ++ (str! " end" ++ r))) := by
      intro x t fs r
      cases fs with
      | nil => exact ⟨_, by simp [displayFields]; rfl, .inr (.inr (.inr ⟨_, rfl, by simp⟩)), by simp, by simp⟩
      | cons f fs => exact ⟨_, by simp [displayFields]; rfl, .inr (.inr (.inl ⟨_, rfl⟩)), by simp, by simp⟩
    obtain ⟨q, e1, f1, a1, b1⟩ := key x t fs r
    obtain ⟨q', e2, f2, a2, b2⟩ := key y u gs r'
    rw [e1, e2] at h
    have g := List.append_cancel_left h
    have wx : ∀ {x : Str}, Printable (.identifier x) → ∀ c ∈ x, isWord c = true := by
      rintro x ⟨⟨c, w, rfl, h1, h2, h3⟩, -⟩ d hd
      have hl : isLower c = true := isLower_iff.2 ⟨h1, h2⟩
      rcases List.mem_cons.1 hd with rfl | hd
      · simp [isWord, hl]
      · exact isWord_iff.2 (h3 d hd)
    obtain ⟨rfl, g'⟩ := word_split (wx h1.1) (wx h2.1) (by simp; decide) (by simp; decide) g
    obtain ⟨ct, k⟩ := display_unique t u q q' h1.2.1 h2.2.1 f1 f2 (List.append_cancel_left g')
    by_cases c1 : fs = [] <;> by_cases c2 : gs = []
    · rw [a1 c1, a2 c2] at k
      exact ⟨by simp only [c1, c2, fieldsCanon, ct], List.append_cancel_left k⟩
    · rw [a1 c1, b2 c2] at k; simp at k
    · rw [b1 c1, a2 c2] at k; simp at k
    · rw [b1 c1, b2 c2] at k
      obtain ⟨cf, e⟩ := fields_unique fs gs r r' h1.2.2 h2.2.2 (List.append_cancel_left k)
      exact ⟨by simp only [fieldsCanon, ct, cf], e⟩
end

mutual
theorem display_canon : ∀ t : Ty, t.canon.display = t.display
  | .map k v => by simp only [Ty.canon, Ty.display, display_canon k, display_canon v]
  | .option t => by simp only [Ty.canon, Ty.display, display_canon t]
  | .list t => by simp only [Ty.canon, Ty.display, display_canon t]
  | .pair a b => by simp only [Ty.canon, Ty.display, display_canon a, display_canon b]
  | .byStr20With tag fs => by simp only [Ty.canon, Ty.display, displayFields_canon fs]
  | .byStrX n => by
    simp only [Ty.canon]
    split
    · rename_i h; subst h; rfl
    · rfl
  | .int32 => rfl
  | .int64 => rfl
  | .int128 => rfl
  | .int256 => rfl
  | .uint32 => rfl
  | .uint64 => rfl
  | .uint128 => rfl
  | .uint256 => rfl
  | .string => rfl
  | .bNum => rfl
  | .bool => rfl
  | .byStr => rfl
  | .byStr20 => rfl
  | .other _ => rfl
theorem displayFields_canon : ∀ fs : List Field, displayFields (fieldsCanon fs) = displayFields fs
  | [] => rfl
  | [⟨x, t⟩] => by simp only [fieldsCanon, displayFields, display_canon t]
  | ⟨x, t⟩ :: ⟨y, u⟩ :: fs => by
    have := displayFields_canon (⟨y, u⟩ :: fs)
    simp only [fieldsCanon] at this ⊢
    simp only [displayFields, display_canon t, this]
end

end Verif
