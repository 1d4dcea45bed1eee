import Verif.Model.Pretty
import Verif.Spec.OneLine
import Verif.Proofs.TreeText
/-
`{:#?}` on one line is `{:?}`.
-/
namespace Verif

/-- a non-empty word -/
def PlainName (s : Str) : Prop := s ≠ [] ∧ ∀ c ∈ s, c.isAlphanum = true ∨ c = '_'

mutual
/-- values whose names are words, with one name for every field -/
inductive Nice : RV → Prop
  | str (s : Str) : Nice (.str s)
  | pos (p : Pos) : Nice (.pos p)
  | vec {l : List RV} : NiceAll l → Nice (.vec l)
  | node {p : Str} {fs : List Str} {vs : List RV} : PlainName (shortName p) →
      (fs = [] ∨ fs.length = vs.length ∧ ∀ f ∈ fs, PlainName f) → NiceAll vs → Nice (.node p fs vs)
inductive NiceAll : List RV → Prop
  | niceNil : NiceAll []
  | niceCons {v : RV} {l : List RV} : Nice v → NiceAll l → NiceAll (v :: l)
end

def margin (n : Nat) : Str := List.replicate (4 * n) ' '

/-- the text inside `n` paddings -/
def inside (n : Nat) : Bool → Str → Str
  | _, [] => []
  | b, c :: s => (if b then margin n else []) ++ c :: inside n (c == '\n') s

theorem margin_succ (n : Nat) : margin (n + 1) = margin n ++ str! "    " := by
  rw [margin, Nat.mul_add, List.replicate_append_replicate.symm]
  rfl

theorem inside_margin (n m : Nat) (s : Str) : inside n false (List.replicate m ' ' ++ s) = List.replicate m ' ' ++ inside n false s := by
  induction m with
  | zero => rfl
  | succ m ih => rw [List.replicate_succ, List.cons_append, inside]; simpa using ih

theorem inside_padded (n : Nat) (b : Bool) (s : Str) : inside n b (padded b s) = inside (n + 1) b s := by
  induction s generalizing b with
  | nil => rfl
  | cons c s ih =>
    cases b
    · simp [padded, inside, ih]
    · simp [padded, inside, ih, margin_succ]

theorem inside_zero (b : Bool) (s : Str) : inside 0 b s = s := by
  induction s generalizing b with
  | nil => rfl
  | cons c s ih => cases b <;> simp [inside, ih, margin]

/-- text without line ends -/
def OneL (x : Str) : Prop := ∀ c ∈ x, c ≠ '\n'

theorem inside_text (n : Nat) {x : Str} (hx : OneL x) (s : Str) : inside n false (x ++ s) = x ++ inside n false s := by
  induction x with
  | nil => rfl
  | cons c x ih =>
    have h1 : (c == '\n') = false := by simpa using hx c (by simp)
    simp [inside, h1, ih fun d hd => hx d (by simp [hd])]

theorem inside_start (n : Nat) {c : Char} {x : Str} (hx : OneL (c :: x)) (s : Str) :
    inside n true (c :: x ++ s) = margin n ++ (c :: x ++ inside n false s) := by
  have h1 : (c == '\n') = false := by simpa using hx c (by simp)
  simp [inside, h1, inside_text n (x := x) fun d hd => hx d (by simp [hd])]

theorem inside_append (n : Nat) (b : Bool) (x y : Str) :
    inside n b (x ++ '\n' :: y) = inside n b (x ++ ['\n']) ++ inside n true y := by
  induction x generalizing b with
  | nil => simp [inside]
  | cons c x ih => simp [inside, ih]

theorem inside_app (n : Nat) (b : Bool) (x y : Str) {c : Char} (hc : c ≠ '\n') :
    inside n b (x ++ c :: y) = inside n b (x ++ [c]) ++ inside n false y := by
  have hc' : (c == '\n') = false := by simpa using hc
  induction x generalizing b with
  | nil => simp [inside, hc']
  | cons d x ih => simp [inside, ih]

/-! ### One line -/

theorem oneLineAt_run {x : Str} {c : Char} (hx : OneL x) (hc : endsLine c = false) (hn : c ≠ '\n') (s : Str) :
    oneLineAt .text (x ++ c :: s) = x ++ c :: oneLineAt .text s ∧
    ∀ d, oneLineAt (.after d) (x ++ c :: s) = d :: (x ++ c :: oneLineAt .text s) := by
  induction x with
  | nil => simp [oneLineAt, hc, hn]
  | cons e x ih =>
    have he := hx e (by simp)
    have ih := ih fun d hd => hx d (by simp [hd])
    cases h : endsLine e <;> simp [oneLineAt, h, ih, he]

theorem oneLine_text {x : Str} (hx : OneL x) (hl : ∀ c, x.getLast? = some c → endsLine c = false) (s : Str) :
    oneLineAt .text (x ++ s) = x ++ oneLineAt .text s := by
  rcases List.eq_nil_or_concat x with rfl | ⟨y, c, rfl⟩
  · rfl
  · simp only [List.concat_eq_append] at hx hl ⊢
    have := (oneLineAt_run (x := y) (c := c) (fun d hd => hx d (by simp [hd])) (hl c (by simp)) (hx c (by simp)) s).1
    simpa using this

theorem blanks_margin (d : Char) (m : Nat) (s : Str) : oneLineAt (.blanks d) (List.replicate m ' ' ++ s) = oneLineAt (.blanks d) s := by
  induction m with
  | zero => rfl
  | succ m ih => rw [List.replicate_succ, List.cons_append, oneLineAt]; simpa using ih

theorem blanks_stop (d : Char) {c : Char} (hc : c ≠ ' ') (s : Str) :
    oneLineAt (.blanks d) (c :: s) = seam d c ++ oneLineAt .text (c :: s) := by
  simp [oneLineAt, hc]

theorem line_end {d : Char} (hd : endsLine d = true) (s : Str) : oneLineAt .text (d :: '\n' :: s) = oneLineAt (.blanks d) s := by
  simp [oneLineAt, hd]

/-! ### Values -/

theorem alnum_ne {c d : Char} (h : c.isAlphanum = true ∨ c = '_') (hd : (d.isAlphanum || d == '_') = false) : c ≠ d := by
  rintro rfl
  rcases h with h | h <;> simp [h] at hd

theorem PlainName.oneL {s : Str} (h : PlainName s) : OneL s := fun c hc => alnum_ne (h.2 c hc) (by decide)

theorem PlainName.last {s : Str} (h : PlainName s) (c : Char) (hc : s.getLast? = some c) : endsLine c = false := by
  have := h.2 c (List.mem_of_getLast? hc)
  have h1 : c ≠ '(' := alnum_ne this (by decide)
  have h2 : c ≠ '[' := alnum_ne this (by decide)
  have h3 : c ≠ '{' := alnum_ne this (by decide)
  have h4 : c ≠ ',' := alnum_ne this (by decide)
  simp [endsLine, h1, h2, h3, h4]

/-- how the text of a value starts -/
def StartsWell (s : Str) : Prop := ∃ c t, s = c :: t ∧ c ≠ '\n' ∧ c ≠ ' ' ∧ c ≠ ')' ∧ c ≠ ']' ∧ c ≠ '}'

theorem PlainName.starts {s : Str} (h : PlainName s) (t : Str) : StartsWell (s ++ t) := by
  cases s with
  | nil => exact absurd rfl h.1
  | cons c s =>
    have := h.2 c (by simp)
    exact ⟨c, s ++ t, rfl, alnum_ne this (by decide), alnum_ne this (by decide), alnum_ne this (by decide),
      alnum_ne this (by decide), alnum_ne this (by decide)⟩

section
variable {esc : Char → Str} (hesc : RustEscapes esc)

/-- the text does not end a line -/
def EndsWell (s : Str) : Prop := ∃ y c, s = y ++ [c] ∧ c ≠ '\n'

theorem EndsWell.app {s : Str} (h : EndsWell s) (n : Nat) (b : Bool) (t : Str) :
    inside n b (s ++ t) = inside n b s ++ inside n false t := by
  obtain ⟨y, c, rfl, hc⟩ := h
  rw [List.append_assoc]
  exact inside_app n b y t hc

theorem EndsWell.left {s : Str} (h : EndsWell s) (t : Str) : EndsWell (t ++ s) := by
  obtain ⟨y, c, rfl, hc⟩ := h
  exact ⟨t ++ y, c, by simp, hc⟩

theorem EndsWell.of_oneL {s : Str} (h : OneL s) (hn : s ≠ []) : EndsWell s := by
  rcases List.eq_nil_or_concat s with rfl | ⟨y, c, rfl⟩
  · exact absurd rfl hn
  · exact ⟨y, c, by simp, h c (by simp)⟩

/-- what is to be shown for a value -/
structure Flat (esc : Char → Str) (v : RV) : Prop where
  starts : StartsWell (v.pretty esc)
  ends : EndsWell (v.pretty esc)
  flat : ∀ n t, oneLineAt .text (inside n false (v.pretty esc) ++ t) = v.debug esc ++ oneLineAt .text t

/-- the same for elements and fields -/
structure FlatAll (esc : Char → Str) (l : List RV) : Prop where
  items : ∀ n c t, (c = ')' ∨ c = ']') →
    oneLineAt (.blanks ',') (inside n true (RV.prettyItems esc l) ++ (margin n ++ c :: t)) =
      RV.debugMore esc l ++ c :: oneLineAt .text t
  fields : ∀ fs n t, fs.length = l.length → (∀ f ∈ fs, PlainName f) →
    oneLineAt (.blanks ',') (inside n true (RV.prettyFields esc fs l) ++ (margin n ++ '}' :: t)) =
      RV.debugFieldsMore esc fs l ++ (' ' :: '}' :: oneLineAt .text t)

/-- a padded piece: the text `x`, a comma, a line end -/
theorem inside_piece (n : Nat) {x : Str} (h : StartsWell x) (he : EndsWell x) (rest : Str) :
    inside n true (padded true (x ++ str! ",\n") ++ rest) =
      margin (n + 1) ++ (inside (n + 1) false x ++ (',' :: '\n' :: inside n true rest)) := by
  have h0 : ∀ (b : Bool) (x : Str), ∃ y, padded b (x ++ str! ",\n") = y ++ ['\n'] := by
    intro b x
    induction x generalizing b with
    | nil => exact ⟨(if b then str! "    " else []) ++ [','], by cases b <;> simp [padded]⟩
    | cons c x ih =>
      obtain ⟨y, hy⟩ := ih (c == '\n')
      exact ⟨(if b then str! "    " else []) ++ c :: y, by cases b <;> simp [padded, hy]⟩
  obtain ⟨y, hy⟩ := h0 true x
  have h1 := inside_append n true y rest
  rw [← hy, inside_padded] at h1
  have e : y ++ '\n' :: rest = padded true (x ++ str! ",\n") ++ rest := by rw [hy]; simp
  rw [← e, h1, he.app]
  obtain ⟨c, t, rfl, hc, -⟩ := h
  simp [inside]

theorem starts_cons {s : Str} (h : StartsWell s) (n : Nat) (d : Char) (t : Str) :
    ∃ c, c ≠ ')' ∧ c ≠ ']' ∧ c ≠ '}' ∧
      oneLineAt (.blanks d) (margin n ++ (inside n false s ++ t)) = seam d c ++ oneLineAt .text (inside n false s ++ t) := by
  obtain ⟨c, u, rfl, h1, h2, h3, h4, h5⟩ := h
  refine ⟨c, h3, h4, h5, ?_⟩
  rw [margin, blanks_margin]
  have : inside n false (c :: u) = c :: inside n (c == '\n') u := by simp [inside]
  rw [this, List.cons_append, blanks_stop d h2]

theorem seam_comma {c : Char} (h1 : c ≠ ')') (h2 : c ≠ ']') (h3 : c ≠ '}') : seam ',' c = [',', ' '] := by
  simp [seam, h1, h2, h3]

theorem FlatAll.nil : FlatAll esc [] where
  items n c t hc := by
    have : c ≠ ' ' := by rcases hc with rfl | rfl <;> decide
    have he : endsLine c = false := by rcases hc with rfl | rfl <;> decide
    have hs : seam ',' c = [] := by rcases hc with rfl | rfl <;> decide
    rw [RV.prettyItems, inside, List.nil_append, margin, blanks_margin, blanks_stop _ this, hs, RV.debugMore]
    simp [oneLineAt, he]
  fields fs n t hl hf := by
    obtain rfl := List.length_eq_zero_iff.1 hl
    have hs : seam ',' '}' = [' '] := by decide
    rw [RV.prettyFields, inside, List.nil_append, margin, blanks_margin, blanks_stop _ (by decide), hs, RV.debugFieldsMore]
    simp [oneLineAt, endsLine]
    all_goals simp

/-- the first element, after `d` and a line end -/
theorem first_item {v : RV} {l : List RV} (h : Flat esc v) (n : Nat) (d : Char) (t : Str) :
    ∃ c, c ≠ ')' ∧ c ≠ ']' ∧ c ≠ '}' ∧
    oneLineAt (.blanks d) (inside n true (RV.prettyItems esc (v :: l)) ++ t) =
      seam d c ++ (v.debug esc ++ oneLineAt (.blanks ',') (inside n true (RV.prettyItems esc l) ++ t)) := by
  obtain ⟨c, h1, h2, h3, h4⟩ := starts_cons h.starts (n + 1) d (',' :: '\n' :: (inside n true (RV.prettyItems esc l) ++ t))
  refine ⟨c, h1, h2, h3, ?_⟩
  rw [RV.prettyItems, inside_piece n h.starts h.ends]
  simp only [List.append_assoc, List.cons_append]
  rw [h4, h.flat, line_end rfl]

/-- the first field, after `d` and a line end -/
theorem first_field {f : Str} {fs : List Str} {v : RV} {l : List RV} (hf : PlainName f) (h : Flat esc v) (n : Nat) (d : Char)
    (t : Str) :
    ∃ c, c ≠ ')' ∧ c ≠ ']' ∧ c ≠ '}' ∧
    oneLineAt (.blanks d) (inside n true (RV.prettyFields esc (f :: fs) (v :: l)) ++ t) =
      seam d c ++ (f ++ (str! ": " ++ (v.debug esc ++
        oneLineAt (.blanks ',') (inside n true (RV.prettyFields esc fs l) ++ t)))) := by
  have hs : StartsWell (f ++ (str! ": " ++ v.pretty esc)) := hf.starts _
  have he : EndsWell (f ++ (str! ": " ++ v.pretty esc)) := (h.ends.left _).left _
  obtain ⟨c, h1, h2, h3, h4⟩ := starts_cons hs (n + 1) d (',' :: '\n' :: (inside n true (RV.prettyFields esc fs l) ++ t))
  refine ⟨c, h1, h2, h3, ?_⟩
  have e : f ++ (str! ": " ++ (v.pretty esc ++ str! ",\n")) = (f ++ (str! ": " ++ v.pretty esc)) ++ str! ",\n" := by simp
  rw [RV.prettyFields, e, inside_piece n hs he]
  simp only [List.append_assoc, List.cons_append] at h4 ⊢
  rw [h4, inside_text _ hf.oneL, List.append_assoc, oneLine_text hf.oneL hf.last]
  have hc : OneL (str! ": ") := by intro c hc; simp at hc; rcases hc with rfl | rfl <;> decide
  have e2 : ∀ x : Str, ':' :: ' ' :: x = str! ": " ++ x := fun _ => rfl
  simp only [List.nil_append]
  rw [e2, inside_text _ hc, List.append_assoc, oneLine_text hc (by intro c hc; simp at hc; subst hc; decide), h.flat, line_end rfl]
  simp

theorem FlatAll.cons {v : RV} {l : List RV} (h : Flat esc v) (hl : FlatAll esc l) : FlatAll esc (v :: l) where
  items n c t hc := by
    obtain ⟨d, h1, h2, h3, h4⟩ := first_item (l := l) h n ',' (margin n ++ c :: t)
    rw [h4, hl.items _ _ _ hc, seam_comma h1 h2 h3, RV.debugMore]
    simp
  fields fs n t hn hf := by
    cases fs with
    | nil => simp at hn
    | cons f fs =>
      obtain ⟨d, h1, h2, h3, h4⟩ := first_field (fs := fs) (l := l) (hf f (by simp)) h n ',' (margin n ++ '}' :: t)
      rw [h4, hl.fields _ _ _ (by simpa using hn) (fun g hg => hf g (by simp [hg])), seam_comma h1 h2 h3, RV.debugFieldsMore]
      simp

theorem Flat.word {p : Str} (h : PlainName (shortName p)) : Flat esc (.node p [] []) := by
  refine ⟨?_, ?_, fun n t => ?_⟩
  · have := h.starts []
    simpa [RV.pretty] using this
  · rw [RV.pretty]; exact .of_oneL h.oneL h.1
  · have := inside_text n h.oneL []
    rw [List.append_nil] at this
    rw [RV.pretty, this, inside, List.append_nil, oneLine_text h.oneL h.last, RV.debug]

theorem opened {x : Str} (hx : OneL x) (n : Nat) (y : Str) : inside n false (x ++ '\n' :: y) = x ++ '\n' :: inside n true y := by
  rw [inside_text n hx]
  simp [inside]

/-- a line of text that ends with an opening character -/
theorem oneLine_open {x : Str} (hx : OneL x) (hl : ∀ c, x.getLast? = some c → endsLine c = false) {d : Char} (hd : endsLine d = true)
    (s : Str) : oneLineAt .text (x ++ d :: '\n' :: s) = x ++ oneLineAt (.blanks d) s := by
  rw [oneLine_text hx hl, line_end hd]

/-- the elements before the closing character, which stands at the margin of the line -/
theorem inside_close (n : Nat) (x : Str) (c : Char) (hx : ∃ y, x = y ++ ['\n']) :
    inside n true (x ++ [c]) = inside n true x ++ (margin n ++ [c]) := by
  obtain ⟨y, rfl⟩ := hx
  have := inside_append n true y [c]
  simp only [List.append_assoc, List.cons_append, List.nil_append] at this ⊢
  rw [this]
  simp [inside]

theorem padded_ends (b : Bool) (x : Str) : ∃ y, padded b (x ++ str! ",\n") = y ++ ['\n'] := by
  induction x generalizing b with
  | nil => exact ⟨(if b then str! "    " else []) ++ [','], by cases b <;> simp [padded]⟩
  | cons c x ih =>
    obtain ⟨y, hy⟩ := ih (c == '\n')
    exact ⟨(if b then str! "    " else []) ++ c :: y, by cases b <;> simp [padded, hy]⟩

theorem items_end (v : RV) (l : List RV) : ∃ y, RV.prettyItems esc (v :: l) = y ++ ['\n'] := by
  induction l generalizing v with
  | nil =>
    obtain ⟨y, hy⟩ := padded_ends true (v.pretty esc)
    exact ⟨y, by simp only [RV.prettyItems, List.append_nil]; exact hy⟩
  | cons w l ih =>
    obtain ⟨y, hy⟩ := ih w
    exact ⟨padded true (v.pretty esc ++ str! ",\n") ++ y, by rw [RV.prettyItems, hy]; simp⟩

theorem fields_end (f : Str) (fs : List Str) (v : RV) (l : List RV) : ∃ y, RV.prettyFields esc (f :: fs) (v :: l) = y ++ ['\n'] := by
  induction l generalizing v f fs with
  | nil =>
    obtain ⟨y, hy⟩ := padded_ends true (f ++ (str! ": " ++ v.pretty esc))
    simp only [List.append_assoc] at hy
    refine ⟨y, ?_⟩
    cases fs <;> simp only [RV.prettyFields, List.append_nil] <;> exact hy
  | cons w l ih =>
    cases fs with
    | nil =>
      obtain ⟨y, hy⟩ := padded_ends true (f ++ (str! ": " ++ v.pretty esc))
      simp only [List.append_assoc] at hy
      exact ⟨y, by simp only [RV.prettyFields, List.append_nil]; exact hy⟩
    | cons g fs =>
      obtain ⟨y, hy⟩ := ih g fs w
      exact ⟨padded true (f ++ (str! ": " ++ (v.pretty esc ++ str! ",\n"))) ++ y, by rw [RV.prettyFields, hy]; simp⟩

theorem Flat.tuple {p : Str} (hp : PlainName (shortName p)) {v : RV} {l : List RV} (h : Flat esc v) (hl : FlatAll esc l) :
    Flat esc (.node p [] (v :: l)) := by
  refine ⟨?_, ?_, fun n t => ?_⟩
  · rw [RV.pretty]; exact hp.starts _
  · rw [RV.pretty]
    exact .left (.left (.left ⟨[], ')', rfl, by decide⟩ _) _) _
  · obtain ⟨c, h1, h2, h3, h4⟩ := first_item (l := l) h n '(' (margin n ++ ')' :: t)
    have e : shortName p ++ (str! "(\n" ++ (RV.prettyItems esc (v :: l) ++ str! ")")) =
        (shortName p ++ ['(']) ++ '\n' :: (RV.prettyItems esc (v :: l) ++ [')']) := by simp
    have ho : OneL (shortName p ++ ['(']) := by
      intro c hc
      rcases List.mem_append.1 hc with hc | hc
      · exact hp.oneL c hc
      · simp at hc; subst hc; decide
    rw [RV.pretty, e, opened ho, inside_close _ _ _ (items_end v l)]
    simp only [List.append_assoc, List.cons_append, List.nil_append]
    rw [oneLine_open hp.oneL hp.last rfl, h4, hl.items _ _ _ (.inl rfl), RV.debug]
    simp [seam]

theorem Flat.vec {v : RV} {l : List RV} (h : Flat esc v) (hl : FlatAll esc l) : Flat esc (.vec (v :: l)) := by
  refine ⟨?_, ?_, fun n t => ?_⟩
  · rw [RV.pretty]; exact ⟨'[', _, rfl, by decide⟩
  · rw [RV.pretty]
    exact .left (.left ⟨[], ']', rfl, by decide⟩ _) _
  · obtain ⟨c, h1, h2, h3, h4⟩ := first_item (l := l) h n '[' (margin n ++ ']' :: t)
    have e : str! "[\n" ++ (RV.prettyItems esc (v :: l) ++ str! "]") =
        ['['] ++ '\n' :: (RV.prettyItems esc (v :: l) ++ [']']) := by simp
    have ho : OneL ['['] := by intro c hc; simp at hc; subst hc; decide
    rw [RV.pretty, e, opened ho, inside_close _ _ _ (items_end v l)]
    simp only [List.append_assoc, List.cons_append, List.nil_append]
    rw [line_end rfl, h4, hl.items _ _ _ (.inr rfl), RV.debug]
    simp [seam]

theorem Flat.emptyVec : Flat esc (.vec []) := by
  refine ⟨?_, ?_, fun n t => ?_⟩
  · rw [RV.pretty]; exact ⟨'[', _, rfl, by decide⟩
  · rw [RV.pretty]; exact ⟨['['], ']', rfl, by decide⟩
  · rw [RV.pretty, RV.debug]
    simp [inside, oneLineAt, endsLine]

theorem Flat.struct {p f : Str} {fs : List Str} (hp : PlainName (shortName p)) {v : RV} {l : List RV} (hf : PlainName f)
    (hfs : ∀ g ∈ fs, PlainName g) (hn : fs.length = l.length) (h : Flat esc v) (hl : FlatAll esc l) :
    Flat esc (.node p (f :: fs) (v :: l)) := by
  refine ⟨?_, ?_, fun n t => ?_⟩
  · rw [RV.pretty]; exact hp.starts _
  · rw [RV.pretty]
    exact .left (.left (.left ⟨[], '}', rfl, by decide⟩ _) _) _
  · obtain ⟨c, h1, h2, h3, h4⟩ := first_field (fs := fs) (l := l) hf h n '{' (margin n ++ '}' :: t)
    have e : shortName p ++ (str! " {\n" ++ (RV.prettyFields esc (f :: fs) (v :: l) ++ str! "}")) =
        (shortName p ++ [' ', '{']) ++ '\n' :: (RV.prettyFields esc (f :: fs) (v :: l) ++ ['}']) := by simp
    have ho : OneL (shortName p ++ [' ', '{']) := by
      intro c hc
      rcases List.mem_append.1 hc with hc | hc
      · exact hp.oneL c hc
      · simp at hc; rcases hc with rfl | rfl <;> decide
    have ho' : OneL (shortName p ++ [' ']) := fun c hc => ho c (by simp at hc ⊢; rcases hc with hc | hc <;> simp [hc])
    rw [RV.pretty, e, opened ho, inside_close _ _ _ (fields_end f fs v l)]
    have e2 : ∀ s : Str, shortName p ++ (' ' :: '{' :: '\n' :: s) = (shortName p ++ [' ']) ++ '{' :: '\n' :: s := by simp
    simp only [List.append_assoc, List.cons_append, List.nil_append]
    rw [e2, oneLine_open ho' (by intro c hc; simp at hc; subst hc; decide) rfl, h4, hl.fields _ _ _ hn hfs, RV.debug]
    simp [seam]

theorem takeWhile_whole {p : Char → Bool} : ∀ {l : Str}, (∀ c ∈ l, p c = true) → l.takeWhile p = l
  | [], _ => rfl
  | c :: l, h => by rw [List.takeWhile_cons, if_pos (h c (by simp)), takeWhile_whole fun d hd => h d (by simp [hd])]

theorem shortName_digits (n : Nat) : shortName (natDigits n) = natDigits n := by
  rw [shortName, takeWhile_whole, List.reverse_reverse]
  intro c hc
  have := natDigits_alnum n c (by simpa using hc)
  have : c ≠ ':' := alnum_ne (.inl this) (by decide)
  simpa using this

theorem digits_plain (n : Nat) : PlainName (shortName (natDigits n)) := by
  rw [shortName_digits]
  exact ⟨Nat.toDigits_ne_nil, fun c hc => .inl (natDigits_alnum n c hc)⟩

/-- a position as a structure of numbers -/
theorem Flat.pos (p : Pos) : Flat esc (.pos p) := by
  have key : Flat esc (.node (str! "SourcePosition") [str! "position", str! "line", str! "column"]
      [.node (natDigits p.position) [] [], .node (natDigits p.line) [] [], .node (natDigits p.column) [] []]) := by
    refine .struct ?_ ?_ ?_ rfl (.word (digits_plain _)) (.cons (.word (digits_plain _)) (.cons (.word (digits_plain _)) .nil))
    all_goals simp [PlainName, shortName]
  have hp : shortName (str! "SourcePosition") = str! "SourcePosition" := rfl
  have e1 : RV.pretty esc (.node (str! "SourcePosition") [str! "position", str! "line", str! "column"]
      [.node (natDigits p.position) [] [], .node (natDigits p.line) [] [], .node (natDigits p.column) [] []]) =
      RV.pretty esc (.pos p) := by
    simp [RV.pretty, RV.prettyFields, Pos.pretty, prettyNumField, shortName_digits, hp]
  have e2 : RV.debug esc (.node (str! "SourcePosition") [str! "position", str! "line", str! "column"]
      [.node (natDigits p.position) [] [], .node (natDigits p.line) [] [], .node (natDigits p.column) [] []]) =
      RV.debug esc (.pos p) := by
    simp [RV.debug, RV.debugFieldsMore, Pos.debug, shortName_digits, hp]
  exact ⟨e1 ▸ key.starts, e1 ▸ key.ends, fun n t => by rw [← e1, ← e2]; exact key.flat n t⟩

theorem hexDigits_ne_break (n : Nat) : ∀ c ∈ hexDigits n, c ≠ '\n' := by
  have key : ∀ k < 16, Nat.digitChar k ≠ '\n' := by decide
  induction n using Nat.strongRecOn with
  | ind n ih =>
    intro c hc
    by_cases h : n < 16
    · rw [hexDigits_small h] at hc
      simp only [List.mem_singleton] at hc
      subst hc; exact key n h
    · rw [hexDigits_step (by omega)] at hc
      rcases List.mem_append.1 hc with hc | hc
      · exact ih _ (by omega) c hc
      · simp only [List.mem_singleton] at hc
        subst hc; exact key _ (by omega)

theorem debugStr_oneL (hesc : RustEscapes esc) (s : Str) : OneL (debugStr esc s) := by
  have hd : ∀ n, '\n' ∉ hexDigits n := fun n hn => hexDigits_ne_break n _ hn rfl
  intro c hc
  simp only [debugStr, List.mem_cons, List.mem_append, List.mem_flatMap, List.not_mem_nil, or_false] at hc
  rcases hc with rfl | ⟨a, ha, hc⟩ | rfl
  · decide
  · rcases debugChar_forms hesc a with ⟨d, h1, h2⟩ | h2 | ⟨h1, h2, h3⟩
    · rw [h2] at hc
      rcases List.mem_cons.1 hc with rfl | hc
      · decide
      · have : c = d := by simpa using hc
        subst this
        rintro rfl
        unfold shortEscape at h1
        repeat' split at h1
        all_goals simp at h1
    · rw [h2] at hc
      simp only [List.mem_cons, List.mem_append, List.not_mem_nil, or_false] at hc
      rcases hc with rfl | rfl | rfl | hc | rfl
      · decide
      · decide
      · decide
      · rintro rfl; exact hd _ hc
      · decide
    · rw [h3] at hc
      have : c = a := by simpa using hc
      subst this
      rintro rfl
      simp [debugChar] at h3
  · decide

theorem Flat.str (hesc : RustEscapes esc) (s : Str) : Flat esc (.str s) := by
  have h := debugStr_oneL hesc s
  have hl : ∀ c, (debugStr esc s).getLast? = some c → endsLine c = false := by
    intro c hc
    simp [debugStr, List.getLast?_cons] at hc
    subst hc; decide
  refine ⟨?_, ?_, fun n t => ?_⟩
  · rw [RV.pretty]; exact ⟨'"', _, rfl, by decide⟩
  · rw [RV.pretty]; exact .of_oneL h (by simp [debugStr])
  · have := inside_text n h []
    rw [List.append_nil] at this
    rw [RV.pretty, this, inside, List.append_nil, oneLine_text h hl, RV.debug]

theorem Nice.flat (hesc : RustEscapes esc) {v : RV} (h : Nice v) : Flat esc v := by
  induction h using Nice.rec (motive_2 := fun l _ => FlatAll esc l ∧ ∀ v t, l = v :: t → Flat esc v ∧ FlatAll esc t) with
  | str s => exact .str hesc s
  | pos p => exact .pos p
  | vec hl ih =>
    cases hl with
    | niceNil => exact .emptyVec
    | niceCons h1 h2 =>
      exact .vec (ih.2 _ _ rfl).1 (ih.2 _ _ rfl).2
  | node hp hf hl ih =>
    cases hl with
    | niceNil =>
      rcases hf with rfl | ⟨hf, -⟩
      · exact .word hp
      · obtain rfl := List.length_eq_zero_iff.1 hf
        exact .word hp
    | niceCons h1 h2 =>
      rcases hf with rfl | ⟨hn, hf⟩
      · exact .tuple hp (ih.2 _ _ rfl).1 (ih.2 _ _ rfl).2
      · rename_i fs _ _
        cases fs with
        | nil => simp at hn
        | cons f fs =>
          exact .struct hp (hf f (by simp)) (fun g hg => hf g (by simp [hg])) (by simpa using hn) (ih.2 _ _ rfl).1
            (ih.2 _ _ rfl).2
  | niceNil => exact ⟨.nil, fun v t h => by cases h⟩
  | niceCons h1 h2 ih1 ih2 =>
    refine ⟨.cons ih1 ih2.1, fun v t h => ?_⟩
    cases h
    exact ⟨ih1, ih2.1⟩

end
end Verif
