import Verif.Proofs.Exchange
import Verif.Props.Forgotten
/-
C90  One keyword written for another.
-/
namespace Verif
open Verif.LR

/-! ### On codes -/

/-- the automata tell the two terminals apart wherever they stand -/
def Passes.parted (A : Passes) (i j : Nat) : Bool := (List.range A.size).all fun q => A.lost (A.step q i) (A.step q j)

def passes : List Passes :=
  [firstPass, secondPass, fifthPass, sixthPass, seventhPass, ninthPass, tenthPass, eleventhPass]

/-- the two terminals have no predecessor in common (and are not the first), or no successor in common (and are not both
the last) -/
def strangers (i j : Nat) : Bool :=
  ((i != 44) && (List.range 59).all fun p =>
    !((followers firstSets lastSets rulePairs p).testBit i && (followers firstSets lastSets rulePairs p).testBit j)) ||
  (!((lastSets[18]?.getD 0).testBit i && (lastSets[18]?.getD 0).testBit j) &&
    (followers firstSets lastSets rulePairs i &&& followers firstSets lastSets rulePairs j) == 0)

def parted (i j : Nat) : Bool :=
  (nextSets.all fun m => !(m.testBit i && m.testBit j)) || (passes.any fun A => Passes.parted A i j) || strangers i j

theorem parted_pass {A : Passes} (hs : A.small = true) (h1 : 1 < A.size) (hf : A.fits lrRules = true) (hk : A.keepsLost 59 = true)
    (hfin : A.behind 1 (.n 18) = A.final) {i j : Nat} (hp : Passes.parted A i j = true) {u v : List Nat} (hv : ∀ t ∈ v, t < 59)
    (ha : Der lrRules [.n 18] (u ++ i :: v)) (hb : Der lrRules [.n 18] (u ++ j :: v)) : False :=
  Passes.one_of_two hs h1 hf hk hfin hv (fun q hq => List.all_eq_true.1 hp q (List.mem_range.2 hq)) ha hb

theorem first_scilla {i : Nat} {v : List Nat} (h : Der lrRules [.n 18] (i :: v)) : i = 44 := by
  have e : num .Program = 18 := by decide +kernel
  rw [← e] at h
  obtain ⟨s, σ, e, ha⟩ := first_action (complete lrTidy lrValid h)
  cases e
  have hb := action_bit ha
  have e0 : actionsOf lrRules lrStates 0 = 2 ^ 44 := by decide +kernel
  rw [e0, Nat.testBit_two_pow] at hb
  simpa using Eq.symm (of_decide_eq_true hb)

theorem last_code {i : Nat} {u : List Nat} (h : Der lrRules [.n 18] (u ++ [i])) : (lastSets[18]?.getD 0).testBit i = true := by
  have hs := der_sound (G := lrRules) (F := firstSets) (L := lastSets) (R := fun _ _ => True) rules_noEmpty firstSets_closed
    lastSets_closed (fun r _ => Linked.of_split fun _ _ _ _ _ _ _ _ _ => trivial) h
  obtain ⟨x, hx, h5⟩ := hs.2.1 _ rfl
  simp at hx
  subst hx
  exact h5

theorem codes_strangers {u v : List Nat} {i j : Nat} (hv : ∀ t ∈ u ++ v, t < 59) (hp : strangers i j = true)
    (ha : Der lrRules [.n 18] (u ++ i :: v)) (hb : Der lrRules [.n 18] (u ++ j :: v)) : False := by
  simp only [strangers, Bool.or_eq_true, Bool.and_eq_true, bne_iff_ne, ne_eq, List.all_eq_true, List.mem_range,
    Bool.not_eq_true', beq_iff_eq] at hp
  rcases hp with ⟨h44, hp⟩ | ⟨hl, hn⟩
  · rcases List.eq_nil_or_concat u with rfl | ⟨u, x, rfl⟩
    · exact h44 (first_scilla ha)
    · rw [List.concat_eq_append, List.append_assoc, List.singleton_append] at ha hb
      have := hp x (hv x (by simp))
      rw [next_code ha, next_code hb] at this
      cases this
  · cases v with
    | nil =>
      rw [last_code ha, last_code hb] at hl
      cases hl
    | cons x v =>
      have h1 := next_code ha
      have h2 := next_code hb
      have : (followers firstSets lastSets rulePairs i &&& followers firstSets lastSets rulePairs j).testBit x = true := by
        rw [Nat.testBit_and, h1, h2]; rfl
      rw [hn] at this
      simp at this

theorem codes_parted {u v : List Nat} {i j : Nat} (hv : ∀ t ∈ u ++ v, t < 59) (hp : parted i j = true)
    (ha : Der lrRules [.n 18] (u ++ i :: v)) (hb : Der lrRules [.n 18] (u ++ j :: v)) : False := by
  have hv' : ∀ t ∈ v, t < 59 := fun t ht => hv t (List.mem_append.2 (.inr ht))
  simp only [parted, Bool.or_eq_true] at hp
  rcases hp with (hp | hp) | hp
  · obtain ⟨m, hm, h1, h2⟩ := both_next ha hb
    have := List.all_eq_true.1 hp m hm
    rw [h1, h2] at this
    cases this
  · simp only [passes, List.any_cons, List.any_nil, Bool.or_false, Bool.or_eq_true] at hp
    rcases hp with hp | hp | hp | hp | hp | hp | hp | hp
    · exact parted_pass firstPass_small (by decide) firstPass_fits firstPass_lost (by decide +kernel) hp hv' ha hb
    · exact parted_pass secondPass_small (by decide) secondPass_fits secondPass_lost (by decide +kernel) hp hv' ha hb
    · exact parted_pass fifthPass_small (by decide) fifthPass_fits fifthPass_lost (by decide +kernel) hp hv' ha hb
    · exact parted_pass sixthPass_small (by decide) sixthPass_fits sixthPass_lost (by decide +kernel) hp hv' ha hb
    · exact parted_pass seventhPass_small (by decide) seventhPass_fits seventhPass_lost (by decide +kernel) hp hv' ha hb
    · exact parted_pass ninthPass_small (by decide) ninthPass_fits ninthPass_lost (by decide +kernel) hp hv' ha hb
    · exact parted_pass tenthPass_small (by decide) tenthPass_fits tenthPass_lost (by decide +kernel) hp hv' ha hb
    · exact parted_pass eleventhPass_small (by decide) eleventhPass_fits eleventhPass_lost (by decide +kernel) hp hv' ha hb
  · exact codes_strangers hv hp ha hb

/-- `with` in the place of `in`: one more expression waits for its `in` -/
theorem codes_in_with {u v : List Nat} (ha : Der lrRules [.n 18] (u ++ 27 :: v)) (hb : Der lrRules [.n 18] (u ++ 29 :: v)) :
    False := by
  obtain ⟨s, -, h1⟩ := Counts.sentence_reads (M := letIn) (l := [0, 1]) letIn_small (by decide) letIn_fits (by decide +kernel) ha
  obtain ⟨s', -, h2⟩ := Counts.sentence_reads (M := letIn) (l := [0, 1]) letIn_small (by decide) letIn_fits (by decide +kernel) hb
  rw [Counts.reads_append, Option.bind_eq_some_iff] at h1 h2
  obtain ⟨⟨q, d⟩, h3, h4⟩ := h1
  obtain ⟨c, h5, h6⟩ := h2
  rw [h3] at h5
  cases h5
  cases d with
  | zero => simp [Counts.reads, Counts.read, letIn] at h4
  | succ d =>
    have e27 : letIn.read (q, d + 1) 27 = some (1, d) := by simp [Counts.read, letIn, Turn.on]
    have e29 : letIn.read (q, d + 1) 29 = some (1, d + 1) := by simp [Counts.read, letIn, Turn.on]
    simp only [Counts.reads, e27, e29, Option.bind_some] at h4 h6
    have := letIn_more v _ _ h4 h6
    simp at this

/-! ### On tokens -/

/-- how the two keywords are told apart: in this order only -/
def told (k k' : Token) : Bool :=
  match code k, code k' with
  | some i, some j =>
    parted i j ||
    -- the blocks
    (delimiters.contains k && delimiters.contains k' && k != k' &&
      !([Token.transition, .procedure].contains k && [Token.transition, .procedure].contains k')) ||
    (delimiters.contains k && Open.read ⟨false, []⟩ k' == some ⟨false, []⟩) ||
    -- `in`, `with`
    (i == 27 && (j == 29 || ![13, 15, 26, 27, 29].contains j)) ||
    (k == .with_ && k' == .end_) ||
    (k == .with_ && Open.read ⟨false, []⟩ k' == some ⟨false, []⟩ && ![29, 34, 38, 48].contains j)
  | _, _ => false

set_option maxRecDepth 100000 in
theorem all_told : ((guarded ++ loose).all fun k => (guarded ++ loose).all fun k' =>
    k == k' || interchangeable.contains (k, k') || interchangeable.contains (k', k) || told k k' || told k' k) = true := by
  decide +kernel

theorem read_plain {t : Token} (h : Open.read ⟨false, []⟩ t = some ⟨false, []⟩) (s s' : Open) (h' : s.read t = some s') :
    s' = ⟨false, s.closers⟩ := by
  cases t <;> first
    | (simp only [Open.read, Option.some.injEq] at h'; exact h'.symm)
    | (simp [Open.read] at h; done)

theorem with_end {s s1 s2 : Open} (h : s.read .with_ = some s1) (h' : s.read .end_ = some s2)
    (e : s1.closers.length = s2.closers.length) : False := by
  obtain ⟨par, cl⟩ := s
  rcases cl with _ | ⟨c, cl⟩
  · simp [Open.read] at h'
  · cases par with
    | true => simp [Open.read] at h
    | false =>
      simp only [Open.read, Bool.false_eq_true, if_false, Option.some.injEq] at h
      simp only [Open.read] at h'
      split at h'
      · cases h'
        subst h
        simp only [List.length_cons, List.tail_cons] at e
        omega
      · cases h'

theorem told_apart {u w : List STok} {a b : List Token} {k k' : Token} (ht : told k k' = true)
    (hu : u.map (·.tok) = a ++ k :: b) (hw : w.map (·.tok) = a ++ k' :: b) :
    parseProgram u = none ∨ parseProgram w = none := by
  cases hp : parseProgram u with
  | none => exact .inl rfl
  | some p =>
  cases hq : parseProgram w with
  | none => exact .inr rfl
  | some q =>
  exfalso
  obtain ⟨c, hc, hd⟩ := program_codes hp
  obtain ⟨c', hc', hd'⟩ := program_codes hq
  cases hik : code k with
  | none => simp [told, hik] at ht
  | some i =>
  cases hjk : code k' with
  | none => simp [told, hik, hjk] at ht
  | some j =>
  rw [hu, List.map_append, List.map_cons, hik] at hc
  rw [hw, List.map_append, List.map_cons, hjk] at hc'
  obtain ⟨cu, c1, rfl, h1, h2⟩ := List.map_eq_append_iff.1 hc.symm
  obtain ⟨i', cv, rfl, h3, h4⟩ := List.map_eq_cons_iff.1 h2
  obtain ⟨cu', c1', rfl, h1', h2'⟩ := List.map_eq_append_iff.1 hc'.symm
  obtain ⟨j', cv', rfl, h3', h4'⟩ := List.map_eq_cons_iff.1 h2'
  have inj : ∀ {l l' : List Nat}, l.map some = l'.map some → l = l' := fun h =>
    List.map_inj_right (fun _ _ => Option.some.inj) |>.1 h
  have e1 := inj (h1'.trans h1.symm)
  have e2 := inj (h4'.trans h4.symm)
  subst e1 e2
  cases h3; cases h3'
  have hv : ∀ t ∈ cu' ++ cv', t < 59 := by
    intro t ht
    rcases List.mem_append.1 ht with ht | ht
    · have : some t ∈ a.map code := by rw [← h1]; exact List.mem_map.2 ⟨t, ht, rfl⟩
      obtain ⟨y, -, hy⟩ := List.mem_map.1 this
      exact code_lt hy
    · have : some t ∈ b.map code := by rw [← h4]; exact List.mem_map.2 ⟨t, ht, rfl⟩
      obtain ⟨y, -, hy⟩ := List.mem_map.1 this
      exact code_lt hy
  obtain ⟨s, s1, s2, k1, k2, k3, k4⟩ := C84_replace u w p q hp hq a [k] [k'] b (by simpa using hu) (by simpa using hw)
  simp only [Open.reads, Option.bind_eq_some_iff] at k2 k3
  obtain ⟨s3, k2, k5⟩ := k2
  cases k5
  obtain ⟨s3, k3, k5⟩ := k3
  cases k5
  simp only [told, hik, hjk, Bool.or_eq_true] at ht
  rcases ht with ((((ht | ht) | ht) | ht) | ht) | ht
  · exact codes_parted hv ht hd hd'
  · simp only [Bool.and_eq_true, List.contains_iff_mem, bne_iff_ne, ne_eq, Bool.not_eq_true', ← Bool.not_eq_true] at ht
    exact read_apart ht.1.1.1 ht.1.1.2 ht.1.2 ht.2 k2 k3 k4
  · simp only [Bool.and_eq_true, List.contains_iff_mem, beq_iff_eq] at ht
    have := read_plain ht.2 _ _ k3
    exact read_delimiter ht.1 k2 (by rw [k4, this])
  · simp only [Bool.and_eq_true, Bool.or_eq_true, beq_iff_eq, Bool.not_eq_true', ← Bool.not_eq_true, List.contains_iff_mem] at ht
    obtain ⟨rfl, rfl | hj⟩ := ht
    · exact codes_in_with hd hd'
    · exact codes_in hj hd hd'
  · simp only [Bool.and_eq_true, beq_iff_eq] at ht
    obtain ⟨rfl, rfl⟩ := ht
    exact with_end k2 k3 (congrArg List.length k4)
  · rw [Bool.and_eq_true, Bool.and_eq_true, beq_iff_eq, beq_iff_eq] at ht
    obtain ⟨⟨rfl, hn⟩, hj⟩ := ht
    replace hj : j ∉ [29, 34, 38, 48] := fun h => by rw [List.contains_iff_mem.2 h] at hj; cases hj
    obtain rfl := read_plain hn _ _ k3
    obtain ⟨par, cl⟩ := s
    cases par with
    | false =>
      simp only [Open.read, Bool.false_eq_true, if_false, Option.some.injEq] at k2
      subst k2
      have := congrArg List.length k4
      simp at this
    | true =>
      have hlast : ∃ a', a = a' ++ [.closeParen] := by
        rcases List.eq_nil_or_concat a with rfl | ⟨a', t, rfl⟩
        · simp [Open.reads] at k1
        · refine ⟨a', ?_⟩
          rw [List.concat_eq_append] at k1 ⊢
          rw [Open.reads_append, Option.bind_eq_some_iff] at k1
          obtain ⟨s4, -, k6⟩ := k1
          simp only [Open.reads, Option.bind_eq_some_iff] at k6
          obtain ⟨s5, k6, k7⟩ := k6
          cases k7
          rw [read_paren k6]
      obtain ⟨a', rfl⟩ := hlast
      have h9 : ∃ u', cu' = u' ++ [9] := by
        rw [List.map_append] at h1
        obtain ⟨u', l, rfl, -, hl⟩ := List.map_eq_append_iff.1 h1
        refine ⟨u', ?_⟩
        have : l.map some = [some 9] := hl.trans rfl
        rw [inj (l' := [9]) this]
      obtain ⟨u', rfl⟩ := h9
      have hi29 : i = 29 := by
        have : code Token.with_ = some 29 := rfl
        rw [this] at hik
        exact (Option.some.inj hik).symm
      subst hi29
      exact codes_with hj hd hd'

/-! ### The theorems -/

/-- C90: one keyword in the place of another, anywhere: at most one of the two is a program, except for ten pairs. -/
theorem C90_tokens (u w : List STok) (a b : List Token) (k k' : Token) (hk : k ∈ guarded ++ loose) (hk' : k' ∈ guarded ++ loose)
    (hn : k ≠ k') (he : (k, k') ∉ interchangeable) (he' : (k', k) ∉ interchangeable)
    (hu : u.map (·.tok) = a ++ k :: b) (hw : w.map (·.tok) = a ++ k' :: b) :
    parseProgram u = none ∨ parseProgram w = none := by
  have h := List.all_eq_true.1 (List.all_eq_true.1 all_told k hk) k' hk'
  simp only [Bool.or_eq_true, beq_iff_eq, hn, false_or, List.contains_iff_mem, he, he'] at h
  rcases h with h | h
  · exact told_apart h hu hw
  · exact (told_apart h hw hu).symm

/-- C90 on documents: two texts, read by the lexer up to the same rest `post`, the one as `ts` and a keyword, the other as
`ts` and another keyword.  If one of the two documents has a contract, the other is a syntax error, except for ten pairs. -/
theorem C90_document (env : Env) (pre pre' post : Str) (ts : List Token) (k k' : Token) (hk : k ∈ guarded ++ loose)
    (hk' : k' ∈ guarded ++ loose) (hn : k ≠ k') (he : (k, k') ∉ interchangeable) (he' : (k', k) ∉ interchangeable)
    (hb : Boundary env.chars pre (ts ++ [k]) post) (hb' : Boundary env.chars pre' (ts ++ [k']) post) :
    (∀ c, fromStr env (pre ++ post) = .ok c → ∃ m, fromStr env (pre' ++ post) = .err (.parseError m)) ∧
    (∀ c, fromStr env (pre' ++ post) = .ok c → ∃ m, fromStr env (pre ++ post) = .err (.parseError m)) := by
  refine either_document env pre pre' post _ _ hb hb' fun u w b hu hw => ?_
  exact C90_tokens u w ts b k k' hk hk' hn he he' (by simpa using hu) (by simpa using hw)

/-- For each of the ten pairs: a place where both may stand; the two keywords, the text before, the text behind. -/
def exchanges : List ((Token × Token) × Str × Str) :=
  [((.library, .import_), str! "scilla_version 0 import A ", str! " B contract C ()"),
   ((.library, .contract), str! "scilla_version 0 contract C (a : ByStr20 with ", str! " end)"),
   ((.library, .as_), str! "scilla_version 0 import A ", str! " B contract C ()"),
   ((.import_, .as_), str! "scilla_version 0 import A ", str! " B contract C ()"),
   ((.send, .event), str! "scilla_version 0 contract C () transition T () ", str! " m end"),
   ((.send, .throw), str! "scilla_version 0 contract C () transition T () ", str! " m end"),
   ((.event, .throw), str! "scilla_version 0 contract C () transition T () ", str! " m end"),
   ((.accept, .throw), str! "scilla_version 0 contract C () transition T () ", str! " end"),
   ((.of_, .type), str! "scilla_version 0 library L type T = | A ", str! " B contract C ()"),
   ((.transition, .procedure), str! "scilla_version 0 contract C () ", str! " T () end")]

/-- C90: of the ten pairs the one may really stand for the other: both documents are accepted. -/
theorem C90_interchangeable : exchanges.map (·.1) = interchangeable ∧
    ∀ e ∈ exchanges, (∃ c, fromStr demoEnv (e.2.1 ++ (e.1.1.text ++ e.2.2)) = .ok c) ∧
      (∃ c, fromStr demoEnv (e.2.1 ++ (e.1.2.text ++ e.2.2)) = .ok c) := by
  refine ⟨rfl, ?_⟩
  have ok : ∀ d, (match fromStr demoEnv d with | .ok _ => true | _ => false) = true → ∃ c, fromStr demoEnv d = .ok c := by
    intro d h
    cases e : fromStr demoEnv d with
    | ok c => exact ⟨c, rfl⟩
    | _ => rw [e] at h; cases h
  have h : (exchanges.all fun e => (match fromStr demoEnv (e.2.1 ++ (e.1.1.text ++ e.2.2)) with | .ok _ => true | _ => false) &&
      (match fromStr demoEnv (e.2.1 ++ (e.1.2.text ++ e.2.2)) with | .ok _ => true | _ => false)) = true := by decide +kernel
  intro e he
  have := List.all_eq_true.1 h e he
  simp only [Bool.and_eq_true] at this
  exact ⟨ok _ this.1, ok _ this.2⟩

/-- The premises are met: `field` and `procedure` in the document of C88. -/
theorem C90_witness : ∃ ts, Token.field ∈ guarded ++ loose ∧ Token.procedure ∈ guarded ++ loose ∧
    (Token.field, Token.procedure) ∉ interchangeable ∧ (Token.procedure, Token.field) ∉ interchangeable ∧
    Boundary demoU (typoPre ++ str! "field") (ts ++ [.field]) typoPost ∧
    Boundary demoU (typoPre ++ str! "procedure") (ts ++ [.procedure]) typoPost ∧
    ∃ c, fromStr demoEnv ((typoPre ++ str! "field") ++ typoPost) = .ok c := by
  have key : ∀ (n : Nat) (pre post : Str) (ts : List Token),
      ((callsN demoU n (.init (pre ++ post))).map fun r => (r.1, r.2.rest)) = some (ts, post) → Boundary demoU pre ts post := by
    intro n pre post ts h
    simp only [Option.map_eq_some_iff, Prod.mk.injEq] at h
    obtain ⟨⟨ts, σ⟩, h, rfl, e⟩ := h
    exact ⟨σ, callsN_calls demoU n _ _ _ h, e⟩
  obtain ⟨-, -, -, -, -, -, hok⟩ := C88_witness
  exact ⟨((callsN demoU 28 (.init (typoPre ++ str! "field" ++ typoPost))).map (·.1)).getD [],
    by decide, by decide, by decide, by decide, key 29 _ _ _ (by decide +kernel), key 29 _ _ _ (by decide +kernel), hok⟩

end Verif
