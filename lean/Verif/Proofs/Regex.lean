import Verif.Spec.Regex
import Verif.Model.Lexer
/- The hand-written matchers of `Model/Lexer` against the regular expressions of the source. -/
namespace Verif

theorem star_split {a : Rx} {m : Str} (h : Rx.Lang (.star a) m) :
    m = [] ∨ ∃ x y, x ≠ [] ∧ m = x ++ y ∧ Rx.Lang a x ∧ Rx.Lang (.star a) y := by
  generalize hr : Rx.star a = r at h
  induction h with
  | starNil b => exact .inl rfl
  | starCons b x y hx hy _ ih =>
    cases hr
    cases x with
    | nil => simpa using ih rfl
    | cons c x => exact .inr ⟨_, _, by simp, rfl, hx, hy⟩
  | _ => cases hr

theorem mem_loop {a : Rx} (ih : ∀ s rest, rest ∈ a.tries s ↔ ∃ m, s = m ++ rest ∧ Rx.Lang a m) :
    ∀ n s, s.length ≤ n → ∀ rest, rest ∈ Rx.tries.loop a.tries n s ↔ ∃ m, s = m ++ rest ∧ Rx.Lang (.star a) m := by
  intro n
  induction n with
  | zero =>
    intro s hs rest
    have : s = [] := List.length_eq_zero_iff.1 (by omega)
    subst this
    rw [Rx.tries.loop]
    constructor
    · intro h
      simp only [List.mem_singleton] at h
      exact ⟨[], by simp [h], .starNil _⟩
    · rintro ⟨m, h, -⟩
      have := List.append_eq_nil_iff.1 h.symm
      simp [this.2]
  | succ n ihn =>
    intro s hs rest
    rw [Rx.tries.loop]
    simp only [List.mem_append, List.mem_flatMap, List.mem_filter, decide_eq_true_eq, List.mem_singleton]
    constructor
    · rintro (⟨r, ⟨hr, hlt⟩, hm⟩ | rfl)
      · obtain ⟨x, rfl, hx⟩ := (ih _ _).1 hr
        obtain ⟨y, rfl, hy⟩ := (ihn r (by omega) rest).1 hm
        exact ⟨x ++ y, by simp, .starCons _ _ _ hx hy⟩
      · exact ⟨[], by simp, .starNil _⟩
    · rintro ⟨m, rfl, hm⟩
      rcases star_split hm with rfl | ⟨x, y, hne, rfl, hx, hy⟩
      · exact .inr (by simp)
      · have hp : 0 < x.length := List.length_pos_iff.2 hne
        refine .inl ⟨y ++ rest, ⟨(ih _ _).2 ⟨x, by simp, hx⟩, ?_⟩, (ihn _ ?_ rest).2 ⟨y, rfl, hy⟩⟩
        · simp only [List.length_append] at hs ⊢
          omega
        · simp only [List.length_append] at hs ⊢
          omega

/-- What is tried is what matches. -/
theorem mem_tries (r : Rx) : ∀ s rest, rest ∈ r.tries s ↔ ∃ m, s = m ++ rest ∧ r.Lang m := by
  induction r with
  | eps =>
    intro s rest
    simp only [Rx.tries, List.mem_singleton]
    constructor
    · rintro rfl; exact ⟨[], rfl, .eps⟩
    · rintro ⟨m, rfl, h⟩; cases h; rfl
  | cls n rs =>
    intro s rest
    constructor
    · intro h
      cases s with
      | nil => simp [Rx.tries] at h
      | cons c s =>
        rw [Rx.tries] at h
        split at h
        · simp only [List.mem_singleton] at h
          exact ⟨[c], by simp [h], .cls _ _ _ ‹_›⟩
        · cases h
    · rintro ⟨m, rfl, h⟩
      cases h
      simp [Rx.tries, *]
  | dot =>
    intro s rest
    constructor
    · intro h
      cases s with
      | nil => simp [Rx.tries] at h
      | cons c s =>
        rw [Rx.tries] at h
        split at h
        · cases h
        · simp only [List.mem_singleton] at h
          exact ⟨[c], by simp [h], .dot _ ‹_›⟩
    · rintro ⟨m, rfl, h⟩
      cases h
      simp [Rx.tries, *]
  | seq a b iha ihb =>
    intro s rest
    simp only [Rx.tries, List.mem_flatMap]
    constructor
    · rintro ⟨r, hr, hm⟩
      obtain ⟨x, rfl, hx⟩ := (iha _ _).1 hr
      obtain ⟨y, rfl, hy⟩ := (ihb _ _).1 hm
      exact ⟨x ++ y, by simp, .seq _ _ _ _ hx hy⟩
    · rintro ⟨m, rfl, h⟩
      cases h with
      | seq _ _ x y hx hy => exact ⟨y ++ rest, (iha _ _).2 ⟨x, by simp, hx⟩, (ihb _ _).2 ⟨y, rfl, hy⟩⟩
  | alt a b iha ihb =>
    intro s rest
    simp only [Rx.tries, List.mem_append, iha, ihb]
    constructor
    · rintro (⟨m, e, h⟩ | ⟨m, e, h⟩)
      · exact ⟨m, e, .altL _ _ _ h⟩
      · exact ⟨m, e, .altR _ _ _ h⟩
    · rintro ⟨m, e, h⟩
      cases h with
      | altL _ _ _ h => exact .inl ⟨m, e, h⟩
      | altR _ _ _ h => exact .inr ⟨m, e, h⟩
  | star a ih =>
    intro s rest
    rw [Rx.tries]
    exact mem_loop ih _ _ (Nat.le_refl _) _
  | opt a ih =>
    intro s rest
    simp only [Rx.tries, List.mem_append, ih, List.mem_singleton]
    constructor
    · rintro (⟨m, e, h⟩ | rfl)
      · exact ⟨m, e, .optSome _ _ h⟩
      · exact ⟨[], rfl, .optNil _⟩
    · rintro ⟨m, e, h⟩
      cases h with
      | optNil => exact .inr (by simpa using e.symm)
      | optSome _ _ h => exact .inl ⟨m, e, h⟩

/-! ### Repeated classes -/

/-- The preferred match of `[…]*` is as long as possible. -/
theorem loop_cls {p : Char → Bool} {f : Str → List Str} (hnil : f [] = [])
    (hf : ∀ c s, f (c :: s) = if p c then [s] else []) :
    ∀ n s, s.length ≤ n → ∃ more, Rx.tries.loop f n s = s.dropWhile p :: more := by
  intro n
  induction n with
  | zero =>
    intro s hs
    have : s = [] := List.length_eq_zero_iff.1 (by omega)
    subst this
    exact ⟨[], rfl⟩
  | succ n ih =>
    intro s hs
    cases s with
    | nil => exact ⟨[], by simp [Rx.tries.loop, hnil]⟩
    | cons c s =>
      rw [Rx.tries.loop, hf]
      by_cases hc : p c
      · obtain ⟨more, e⟩ := ih s (by simpa using hs)
        exact ⟨more ++ [c :: s], by simp [hc, e]⟩
      · exact ⟨[], by simp [hc]⟩

theorem cls_star (n : Bool) (rs : List (Char × Char)) (s : Str) :
    ∃ more, (Rx.star (.cls n rs)).tries s = s.dropWhile (inClass n rs) :: more := by
  rw [Rx.tries]
  exact loop_cls (by simp [Rx.tries]) (fun c s => by simp [Rx.tries]) _ _ (Nat.le_refl _)

theorem length_takeWhile (p : Char → Bool) (s : Str) :
    s.length - (s.dropWhile p).length = (s.takeWhile p).length := by
  have := congrArg List.length (List.takeWhile_append_dropWhile (p := p) (l := s))
  rw [List.length_append] at this
  omega

/-- A match given by the text after it. -/
theorem find_of_head {r : Rx} {s m rest : Str} {more : List Str} (h : r.tries s = rest :: more) (e : s = m ++ rest) :
    r.find s = some m := by
  rw [Rx.find, h, e]
  simp

theorem find_of_nil {r : Rx} {s : Str} (h : r.tries s = []) : r.find s = none := by
  rw [Rx.find, h]
  rfl

theorem split_while (p : Char → Bool) (s : Str) : s = s.takeWhile p ++ s.dropWhile p :=
  (List.takeWhile_append_dropWhile).symm

/-! ### The pieces of the eight expressions -/

theorem tries_cls_nil (n : Bool) (rs : List (Char × Char)) (r : Rx) : (Rx.seq (.cls n rs) r).tries [] = [] := by
  simp [Rx.tries]

theorem tries_cls_cons (n : Bool) (rs : List (Char × Char)) (r : Rx) (c : Char) (s : Str) :
    (Rx.seq (.cls n rs) r).tries (c :: s) = if inClass n rs c then r.tries s else [] := by
  rw [Rx.tries, Rx.tries]
  split <;> simp

theorem tries_eps (a : Rx) (s : Str) : (Rx.seq a .eps).tries s = a.tries s := by
  have : Rx.tries .eps = fun s => [s] := by funext s; simp [Rx.tries]
  rw [Rx.tries, this]
  simp

theorem char_eq_iff {a b : Char} : a = b ↔ a.toNat = b.toNat :=
  ⟨fun h => h ▸ rfl, fun h => Char.ext (UInt32.toNat_inj.1 h)⟩

theorem class_one (a c : Char) : inClass false [(a, a)] c = (c == a) := by
  rw [Bool.eq_iff_iff]
  simp only [inClass, List.any_cons, List.any_nil, Bool.or_false, Bool.bne_false, Bool.and_eq_true, decide_eq_true_eq,
    beq_iff_eq, char_eq_iff (a := c)]
  omega

theorem class_not_quote (c : Char) : inClass true [('"', '"')] c = !(c == '"') := by
  rw [← class_one]
  simp [inClass]

theorem class_digit : inClass false [('0', '9')] = isDigit := by
  funext c
  simp [inClass, isDigit]

theorem class_lower : inClass false [('a', 'z')] = isLower := by
  funext c
  simp [inClass, isLower]

theorem class_upper : inClass false [('A', 'Z')] = isUpper := by
  funext c
  simp [inClass, isUpper]

theorem class_hex : inClass false [('a', 'f'), ('A', 'F'), ('0', '9')] = isHex := by
  funext c
  rw [Bool.eq_iff_iff]
  simp only [inClass, isHex, isDigit, List.any_cons, List.any_nil, Bool.or_false, Bool.bne_false, Bool.or_eq_true,
    Bool.and_eq_true, decide_eq_true_eq, show ('a' : Char).toNat = 97 from rfl, show ('f' : Char).toNat = 102 from rfl,
    show ('A' : Char).toNat = 65 from rfl, show ('F' : Char).toNat = 70 from rfl,
    show ('0' : Char).toNat = 48 from rfl, show ('9' : Char).toNat = 57 from rfl]
  omega

theorem class_word : inClass false [('a', 'z'), ('A', 'Z'), ('0', '9'), ('_', '_')] = isWord := by
  funext c
  rw [Bool.eq_iff_iff]
  simp only [inClass, isWord, isLower, isUpper, isDigit, List.any_cons, List.any_nil, Bool.or_false, Bool.bne_false,
    Bool.or_eq_true, Bool.and_eq_true, decide_eq_true_eq, beq_iff_eq, char_eq_iff (a := c),
    show ('a' : Char).toNat = 97 from rfl, show ('z' : Char).toNat = 122 from rfl,
    show ('A' : Char).toNat = 65 from rfl, show ('Z' : Char).toNat = 90 from rfl,
    show ('0' : Char).toNat = 48 from rfl, show ('9' : Char).toNat = 57 from rfl,
    show ('_' : Char).toNat = 95 from rfl]
  omega

theorem class_sign (c : Char) : inClass false [('+', '+'), ('-', '-')] c = (c == '+' || c == '-') := by
  rw [← class_one, ← class_one]
  simp [inClass]

/-- `[0-9]+` and the like: one character of the class, then as many as there are. -/
theorem plus_tries (n : Bool) (rs : List (Char × Char)) (s : Str) :
    (s.takeWhile (inClass n rs) = [] ∧ (Rx.plus (.cls n rs)).tries s = []) ∨
    (s.takeWhile (inClass n rs) ≠ [] ∧ ∃ more, (Rx.plus (.cls n rs)).tries s = s.dropWhile (inClass n rs) :: more) := by
  cases s with
  | nil => exact .inl ⟨rfl, tries_cls_nil _ _ _⟩
  | cons c s =>
    rw [Rx.plus, tries_cls_cons]
    by_cases h : inClass n rs c
    · obtain ⟨more, e⟩ := cls_star n rs s
      exact .inr ⟨by simp [h], more, by simp [h, e]⟩
    · exact .inl (by simp [h])

theorem tries_length {r : Rx} {s rest : Str} {more : List Str} (h : r.tries s = rest :: more) :
    rest.length ≤ s.length := by
  obtain ⟨m, e, -⟩ := (mem_tries r s rest).1 (by rw [h]; exact List.mem_cons_self)
  rw [e, List.length_append]
  omega

theorem find_cls_nil (n : Bool) (rs : List (Char × Char)) (r : Rx) : (Rx.seq (.cls n rs) r).find [] = none :=
  find_of_nil (tries_cls_nil _ _ _)

theorem find_cls (n : Bool) (rs : List (Char × Char)) (r : Rx) (c : Char) (s : Str) :
    (Rx.seq (.cls n rs) r).find (c :: s) = if inClass n rs c then (r.find s).map (c :: ·) else none := by
  rw [Rx.find, tries_cls_cons]
  split
  · rw [Rx.find]
    cases e : r.tries s with
    | nil => rfl
    | cons rest more =>
      have := tries_length e
      simp only [List.head?_cons, Option.map_some, List.length_cons,
        show s.length + 1 - rest.length = (s.length - rest.length) + 1 by omega, List.take_succ_cons]
  · rfl

theorem find_plus (n : Bool) (rs : List (Char × Char)) (s : Str) :
    (Rx.seq (Rx.plus (.cls n rs)) .eps).find s =
      match s.takeWhile (inClass n rs) with
      | [] => none
      | ds => some ds := by
  rcases plus_tries n rs s with ⟨h1, h2⟩ | ⟨h1, more, h2⟩
  · rw [find_of_nil (by rw [tries_eps]; exact h2), h1]
  · rw [find_of_head (m := s.takeWhile (inClass n rs)) (by rw [tries_eps]; exact h2) (split_while _ _)]
    split
    · exact absurd ‹_› h1
    · rfl

theorem find_star (n : Bool) (rs : List (Char × Char)) (s : Str) :
    (Rx.seq (.star (.cls n rs)) .eps).find s = some (s.takeWhile (inClass n rs)) := by
  obtain ⟨more, h⟩ := cls_star n rs s
  exact find_of_head (by rw [tries_eps]; exact h) (split_while _ _)

theorem find_opt (a r : Rx) (s : Str) :
    (Rx.seq (.opt a) r).find s = ((Rx.seq a r).find s).or (r.find s) := by
  simp only [Rx.find, Rx.tries, List.flatMap_append, List.flatMap_cons, List.flatMap_nil, List.append_nil,
    List.head?_append]
  cases ((a.tries s).flatMap r.tries).head? <;> rfl

theorem find_alt (a b r : Rx) (s : Str) :
    (Rx.seq (.alt a b) r).find s = ((Rx.seq a r).find s).or ((Rx.seq b r).find s) := by
  simp only [Rx.find, Rx.tries, List.flatMap_append, List.head?_append]
  cases ((a.tries s).flatMap r.tries).head? <;> rfl

theorem find_seq_eps (a r : Rx) (s : Str) : (Rx.seq (.seq a .eps) r).find s = (Rx.seq a r).find s := by
  rw [Rx.find, Rx.tries, tries_eps, Rx.find, Rx.tries]

theorem find_eps (s : Str) : Rx.eps.find s = some [] := by
  simp [Rx.find, Rx.tries]

/-! ### Hexadecimal numbers -/

theorem loop_hex {f : Str → List Str} (h0 : f [] = []) (h1 : ∀ a, f [a] = [])
    (hf : ∀ a b s, f (a :: b :: s) = if isHex a && isHex b then [s] else []) :
    ∀ n s, s.length ≤ n → ∃ more rest, Rx.tries.loop f n s = rest :: more ∧ s = hexPairs s ++ rest := by
  intro n
  induction n with
  | zero =>
    intro s hs
    have : s = [] := List.length_eq_zero_iff.1 (by omega)
    subst this
    exact ⟨[], [], rfl, rfl⟩
  | succ n ih =>
    intro s hs
    match s with
    | [] => exact ⟨[], [], by simp [Rx.tries.loop, h0], rfl⟩
    | [a] => exact ⟨[], [a], by simp [Rx.tries.loop, h1], rfl⟩
    | a :: b :: s =>
      by_cases hc : (isHex a && isHex b) = true
      · obtain ⟨more, rest, e1, e2⟩ := ih s (by simp only [List.length_cons] at hs; omega)
        refine ⟨more ++ [a :: b :: s], rest, ?_, ?_⟩
        · rw [Rx.tries.loop, hf, if_pos hc]
          have : decide (s.length < (a :: b :: s).length) = true := by simp; omega
          simp only [List.filter_cons, this, if_true, List.filter_nil, List.flatMap_cons, List.flatMap_nil, List.append_nil,
            e1, List.cons_append]
        · rw [hexPairs, if_pos hc, List.cons_append, List.cons_append, ← e2]
      · refine ⟨[], a :: b :: s, ?_, ?_⟩
        · rw [Rx.tries.loop, hf, if_neg hc]
          rfl
        · rw [hexPairs, if_neg hc]
          rfl

theorem find_hex (s : Str) :
    (Rx.seq (.star (.seq (.cls false [('a', 'f'), ('A', 'F'), ('0', '9')])
      (.seq (.cls false [('a', 'f'), ('A', 'F'), ('0', '9')]) .eps))) .eps).find s = some (hexPairs s) := by
  obtain ⟨more, rest, e1, e2⟩ := loop_hex (f := (Rx.seq (.cls false [('a', 'f'), ('A', 'F'), ('0', '9')])
      (.seq (.cls false [('a', 'f'), ('A', 'F'), ('0', '9')]) .eps)).tries) (tries_cls_nil _ _ _)
    (fun a => by rw [tries_cls_cons, tries_cls_nil, ite_self])
    (fun a b s => by
      rw [tries_cls_cons, tries_cls_cons, class_hex]
      cases isHex a <;> simp [Rx.tries]) _ s (Nat.le_refl _)
  exact find_of_head (by rw [tries_eps, Rx.tries]; exact e1) e2

/-! ### String literals -/

/-- the body of a string literal: `\\.|[^"]` -/
def rxBody : Rx := .alt (.seq (.lit '\\') (.seq .dot .eps)) (.seq (.cls true [('"', '"')]) .eps)

theorem body_nil : rxBody.tries [] = [] := by
  simp [rxBody, Rx.tries, Rx.lit]

theorem body_quote (s : Str) : rxBody.tries ('"' :: s) = [] := by
  rw [rxBody, Rx.tries, Rx.lit, tries_cls_cons, tries_cls_cons, class_one, class_not_quote]
  rfl

theorem body_other (c : Char) (s : Str) (h1 : c ≠ '"') (h2 : c ≠ '\\') : rxBody.tries (c :: s) = [s] := by
  rw [rxBody, Rx.tries, Rx.lit, tries_cls_cons, tries_cls_cons, class_one, class_not_quote]
  simp [h1, h2, Rx.tries]

theorem body_slash_nil : rxBody.tries ['\\'] = [[]] := by
  rw [rxBody, Rx.tries, Rx.lit, tries_cls_cons, tries_cls_cons, class_one, class_not_quote]
  simp [Rx.tries]

theorem body_slash (d : Char) (s : Str) :
    rxBody.tries ('\\' :: d :: s) = (if d = '\n' then [] else [s]) ++ [d :: s] := by
  rw [rxBody, Rx.tries, Rx.lit, tries_cls_cons, tries_cls_cons, class_one, class_not_quote, tries_eps]
  simp [Rx.tries]

/-- the closing quote -/
def rxClose (s : Str) : List Str := (Rx.seq (.lit '"') .eps).tries s

theorem close_quote (s : Str) : rxClose ('"' :: s) = [s] := by
  rw [rxClose, Rx.lit, tries_cls_cons, class_one]
  simp [Rx.tries]

theorem close_other (c : Char) (s : Str) (h : c ≠ '"') : rxClose (c :: s) = [] := by
  rw [rxClose, Rx.lit, tries_cls_cons, class_one]
  simp [h]

theorem close_nil : rxClose [] = [] := tries_cls_nil _ _ _

/-- a match of the rest of a literal, given by what it covers or by what follows it -/
def RxCovers (s : Str) : Option Str → List Str → Prop
  | none, l => l = []
  | some m, l => ∃ rest more, l = rest :: more ∧ s = m ++ rest

theorem RxCovers.cons {c : Char} {s : Str} {m : Option Str} {l : List Str} (h : RxCovers s m l) :
    RxCovers (c :: s) (m.map (c :: ·)) l := by
  cases m with
  | none => exact h
  | some m =>
    obtain ⟨rest, more, e1, e2⟩ := h
    exact ⟨rest, more, e1, by rw [e2]; rfl⟩

theorem RxCovers.or {s : Str} {m m' : Option Str} {l l' : List Str} (h : RxCovers s m l) (h' : RxCovers s m' l') :
    RxCovers s (m.or m') (l ++ l') := by
  cases m with
  | none =>
    have e : l = [] := h
    subst e
    exact h'
  | some m =>
    obtain ⟨rest, more, e1, e2⟩ := h
    exact ⟨rest, more ++ l', by rw [e1]; rfl, e2⟩

theorem RxCovers.append_nil {s : Str} {m : Option Str} {l : List Str} (h : RxCovers s m l) : RxCovers s m (l ++ []) := by
  rw [List.append_nil]; exact h

theorem loop_string : ∀ n s, s.length ≤ n →
    RxCovers s (stringBody s) ((Rx.tries.loop rxBody.tries n s).flatMap rxClose) := by
  intro n
  induction n with
  | zero =>
    intro s hs
    have : s = [] := List.length_eq_zero_iff.1 (by omega)
    subst this
    simp only [Rx.tries.loop, List.flatMap_cons, List.flatMap_nil, List.append_nil, close_nil]
    rfl
  | succ n ih =>
    intro s hs
    rw [Rx.tries.loop, List.flatMap_append, List.flatMap_cons, List.flatMap_nil, List.append_nil, List.flatMap_assoc]
    match s with
    | [] =>
      rw [body_nil, close_nil]
      rfl
    | c :: s =>
      rw [stringBody.eq_def]
      simp only [List.length_cons] at hs
      by_cases h1 : c = '"'
      · subst h1
        rw [body_quote, close_quote]
        exact ⟨s, [], rfl, rfl⟩
      · rw [close_other c s h1]
        simp only [beq_iff_eq, h1, if_false]
        by_cases h2 : c = '\\'
        · subst h2
          simp only [if_true]
          match s with
          | [] =>
            rw [body_slash_nil]
            have : decide (([] : Str).length < ['\\'].length) = true := by decide
            have h := ih [] (by simp)
            simp only [List.filter_cons, this, if_true, List.filter_nil, List.flatMap_cons, List.flatMap_nil]
            exact (RxCovers.append_nil (RxCovers.append_nil h)).cons
          | d :: s =>
            have hd := ih (d :: s) (by simpa using hs)
            have f1 : decide ((d :: s).length < ('\\' :: d :: s).length) = true := by simp
            have f2 : decide (s.length < ('\\' :: d :: s).length) = true := by simp; omega
            rw [body_slash]
            by_cases h3 : d = '\n'
            · subst h3
              simp only [if_true, List.nil_append, List.filter_cons, f1, List.filter_nil, List.flatMap_cons,
                List.flatMap_nil]
              exact (RxCovers.append_nil (RxCovers.append_nil hd)).cons
            · simp only [h3, if_false, List.cons_append, List.nil_append, List.filter_cons, f1, f2, if_true,
                List.filter_nil, List.flatMap_cons, List.flatMap_nil]
              have hs' := ih s (by simp only [List.length_cons] at hs; omega)
              have := (hs'.cons (c := d)).cons (c := '\\') |>.or (hd.cons (c := '\\'))
              cases e : stringBody s with
              | none =>
                rw [e] at this
                simpa using this
              | some m =>
                rw [e] at this
                simpa using this
        · simp only [h2, if_false]
          rw [body_other c s h1 h2]
          have f1 : decide (s.length < (c :: s).length) = true := by simp
          simp only [List.filter_cons, f1, if_true, List.filter_nil, List.flatMap_cons, List.flatMap_nil]
          exact (RxCovers.append_nil (RxCovers.append_nil (ih s (by omega)))).cons

theorem find_string (s : Str) :
    (Rx.seq (.star rxBody) (.seq (.lit '"') .eps)).find s = stringBody s := by
  have h := loop_string s.length s (Nat.le_refl _)
  have e : (Rx.seq (.star rxBody) (.seq (.lit '"') .eps)).tries s =
      (Rx.tries.loop rxBody.tries s.length s).flatMap rxClose := by
    rw [Rx.tries, Rx.tries]
    rfl
  cases hm : stringBody s with
  | none =>
    rw [hm] at h
    exact find_of_nil (e.trans h)
  | some m =>
    rw [hm] at h
    obtain ⟨rest, more, e1, e2⟩ := h
    exact find_of_head (e.trans e1) e2

end Verif
