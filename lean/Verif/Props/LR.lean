import Verif.Proofs.LRSpeaks
import Verif.Proofs.LRTables
/-
C60, C61: the generated LR parser.

The tables are generated by LALRPOP when the crate is built and are not in the repository.  The theorems hold for all
tables `T` that fit the grammar file (`Valid desugared T I` for some items `I`); `C60_tables` gives such tables, so the
hypothesis can be met.
-/
namespace Verif

open LR

/-- the tables of tools/lr_tables.py -/
abbrev demoTables : Tables := tablesOf lrRules lrStates

theorem lrTidy' : Tidy desugared (num .Program) (fun x => lrRanks[x]?.getD 0) 5 := lrRules_eq ▸ lrTidy

/-- There are tables that fit the grammar file: it is an LR(1) grammar. -/
theorem C60_tables : Valid desugared demoTables (itemSets lrStates) := lrRules_eq ▸ lrValid

/-- `Contract::from_str` with the generated parser, whatever the tables: every document has exactly one result, and it is
that of `fromStr`, the function all other properties are about -/
theorem C60_from_str {T : Tables} {I : Items} (hV : Valid desugared T I) (names : List (Nat × Str)) :
    ∃ expected : List Token → List Str, ∀ (chars : CharClass) (esc : Char → Str) (doc : Str) (r : ParseResult),
      FromStr desugared T code names chars esc doc r ↔ r = fromStr (Env.real chars esc expected) doc :=
  ⟨_, fun chars esc doc r => fromStr_iff lrTidy' hV speaks names chars esc doc r⟩

/-- The parser ends on every document, after at most twelve rounds of its loop per token; it does not run into an empty
stack or a missing table entry, and never reports an extra token. -/
theorem C60_ends {T : Tables} {I : Items} (hV : Valid desugared T I) (chars : CharClass) (doc : Str) :
    ∃ n o, Drive desugared T code chars n (.init doc) [0] [] o ∧ n ≤ 12 * (yielded chars doc).length + 1 ∧
      o ≠ .stuck ∧ ∀ t, o ≠ .extraToken t := by
  obtain ⟨fin, -, h⟩ := drive lrTidy' hV speaks chars
  obtain ⟨n, o, hd, hn, hr⟩ := h doc
  refine ⟨n, o, hd, hn, ?_, ?_⟩
  · rintro rfl; exact hr
  · rintro t rfl; exact hr

/-- the way the parser ends is determined -/
theorem C60_deterministic {T : Tables} {chars : CharClass} {n m : Nat} {doc : Str} {o o' : LR.Outcome}
    (h : Drive desugared T code chars n (.init doc) [0] [] o)
    (h' : Drive desugared T code chars m (.init doc) [0] [] o') : n = m ∧ o = o' := h.det h'

theorem outcome_right {T : Tables} {I : Items} (hV : Valid desugared T I) {chars : CharClass} {n : Nat} {doc : Str} {o : LR.Outcome}
    (h : Drive desugared T code chars n (.init doc) [0] [] o) :
    ∃ fin : Nat → Prop, Settling desugared T I (num .Program) (fun x => lrRanks[x]?.getD 0) 5 fin ∧
      LR.Outcome.Right desugared T I (num .Program) (fun x => lrRanks[x]?.getD 0) 5 code fin
      (lexDoc chars doc) (yielded chars doc) o := by
  obtain ⟨fin, hset, hd⟩ := drive lrTidy' hV speaks chars
  obtain ⟨n', o', hd', _, hr⟩ := hd doc
  obtain ⟨_, rfl⟩ := h.det hd'
  exact ⟨fin, hset, hr⟩

/-- The parser accepts exactly the documents that the lexer takes apart into tokens generated by `Program`. -/
theorem C60_accepts {T : Tables} {I : Items} (hV : Valid desugared T I) (chars : CharClass) (doc : Str) (toks : List STok) :
    (∃ n, Drive desugared T code chars n (.init doc) [0] [] (.accept toks)) ↔
      lexDoc chars doc = some toks ∧ Gen [.non .Program] (toks.map (·.tok)) := by
  rw [← C59_program]
  constructor
  · rintro ⟨n, h⟩
    obtain ⟨_, _, hr⟩ := outcome_right hV h
    exact hr
  · rintro ⟨h1, p, h2⟩
    obtain ⟨fin, -, h⟩ := drive lrTidy' hV speaks chars
    obtain ⟨n, o, hd, _, hr⟩ := h doc
    have hv : Viable toks := ⟨[], by rw [List.append_nil, h2]; rfl⟩
    have hy := yielded_of_lexDoc h1
    cases o with
    | accept toks' =>
      have := hr.1
      rw [h1] at this
      injection this with e
      subst e
      exact ⟨n, hd⟩
    | badToken got t st =>
      obtain ⟨⟨post, e⟩, _, hnv, _⟩ := hr
      rw [hy] at e
      refine absurd ?_ hnv
      obtain ⟨rest, hrest⟩ := hv
      refine ⟨post ++ rest, ?_⟩
      rw [e] at hrest
      simpa using hrest
    | badEof got st =>
      obtain ⟨e, _, hn, _⟩ := hr
      rw [h1] at e
      injection e with e
      subst e
      rw [h2] at hn
      cases hn
    | extraToken t => exact absurd hr id
    | lexerPanic =>
      have := hr.1
      rw [h1] at this
      cases this
    | stuck => exact absurd hr id

/-- A token is rejected at the earliest moment: the tokens before it begin some program, with it they begin none. -/
theorem C60_rejects {T : Tables} {I : Items} (hV : Valid desugared T I) {chars : CharClass} {n : Nat} {doc : Str}
    {got : List STok} {t : STok} {st : List Nat} (h : Drive desugared T code chars n (.init doc) [0] [] (.badToken got t st)) :
    (∃ rest, Gen [.non .Program] ((got ++ rest).map (·.tok))) ∧
      ∀ rest, ¬ Gen [.non .Program] ((got ++ t :: rest).map (·.tok)) := by
  obtain ⟨_, _, _, hv, hn, _⟩ := outcome_right hV h
  constructor
  · obtain ⟨rest, hr⟩ := hv
    exact ⟨rest, (C59_program _).1 (Option.isSome_iff_exists.1 hr)⟩
  · intro rest hg
    obtain ⟨p, hp⟩ := (C59_program _).2 hg
    refine hn ⟨rest, ?_⟩
    rw [List.append_assoc]
    show (parseProgram (got ++ t :: rest)).isSome = true
    rw [hp]
    rfl

/-- The end of the input is rejected only if all the tokens begin some program and are none themselves. -/
theorem C60_rejects_end {T : Tables} {I : Items} (hV : Valid desugared T I) {chars : CharClass} {n : Nat} {doc : Str}
    {got : List STok} {st : List Nat} (h : Drive desugared T code chars n (.init doc) [0] [] (.badEof got st)) :
    lexDoc chars doc = some got ∧ (∃ rest, Gen [.non .Program] ((got ++ rest).map (·.tok))) ∧
      ¬ Gen [.non .Program] (got.map (·.tok)) := by
  obtain ⟨_, _, hl, hv, hn, _⟩ := outcome_right hV h
  refine ⟨hl, ?_, ?_⟩
  · obtain ⟨rest, hr⟩ := hv
    exact ⟨rest, (C59_program _).1 (Option.isSome_iff_exists.1 hr)⟩
  · intro hg
    obtain ⟨p, hp⟩ := (C59_program _).2 hg
    rw [hn] at hp
    cases hp

/-- the stack of an error: whatever the simulation accepts can really follow the tokens read -/
theorem accepts_continues {T : Tables} {I : Items} {fin : Nat → Prop} {got : List STok} {w st : List Nat}
    {k a : Nat} (hfin : Settling desugared T I (num .Program) (fun x => lrRanks[x]?.getD 0) 5 fin)
    (hc : Coded code got w) (hg : Good desugared T I (fun x => lrRanks[x]?.getD 0) 5 fin st w k)
    (ha : Accepts desugared T st a) :
    ∃ t : Token, code t = some a ∧ ∃ rest, Gen [.non .Program] (got.map (·.tok) ++ t :: rest) := by
  obtain ⟨n, v, hs, hv⟩ := ha
  obtain ⟨n', v', hs', h⟩ := hfin hg (some a)
  obtain ⟨_, rfl⟩ := hs.det hs'
  have : ∃ z, Der desugared [.n (num .Program)] (w ++ a :: z) := by
    rcases h with ⟨a', _, _, e, _, _, _, z, hz⟩ | ⟨e, _⟩ | ⟨st', rfl, _⟩
    · injection e with e
      subst e
      exact ⟨z, hz⟩
    · cases e
    · rcases hv with e | ⟨_, e⟩ <;> cases e
  obtain ⟨z, hz⟩ := this
  obtain ⟨rest, hr⟩ := exists_tokens (code := code) z fun b hb => speaks.tokens _ hz b (by simp [hb])
  obtain ⟨t, ht⟩ := speaks.tokens _ hz a (by simp)
  refine ⟨t, ht, rest.map (·.tok), ?_⟩
  rw [gen_iff_der (start := .Program)]
  refine ⟨_, ?_, hz⟩
  simp only [Coded] at hc hr
  simp only [List.map_append, List.map_cons, List.map_map, ht]
  rw [← hc, ← hr]
  rfl

/-- A token is rejected, with a list of expected ones: each of them is a kind of token that could really have come
instead -- the tokens read, that token and some more are a program. -/
theorem C61_token {T : Tables} {I : Items} (hV : Valid desugared T I) {chars : CharClass} {n : Nat} {doc : Str}
    {got : List STok} {t : STok} {st : List Nat} (h : Drive desugared T code chars n (.init doc) [0] [] (.badToken got t st))
    {a : Nat} (ha : Accepts desugared T st a) :
    ∃ t' : Token, code t' = some a ∧ ∃ rest, Gen [.non .Program] (got.map (·.tok) ++ t' :: rest) := by
  obtain ⟨fin, hset, _, _, _, w, k, hc, hg⟩ := outcome_right hV h
  exact accepts_continues hset hc hg ha

/-- the same at the end of the input -/
theorem C61_end {T : Tables} {I : Items} (hV : Valid desugared T I) {chars : CharClass} {n : Nat} {doc : Str}
    {got : List STok} {st : List Nat} (h : Drive desugared T code chars n (.init doc) [0] [] (.badEof got st))
    {a : Nat} (ha : Accepts desugared T st a) :
    ∃ t' : Token, code t' = some a ∧ ∃ rest, Gen [.non .Program] (got.map (·.tok) ++ t' :: rest) := by
  obtain ⟨fin, hset, _, _, _, w, k, hc, hg⟩ := outcome_right hV h
  exact accepts_continues hset hc hg ha

/-- the rejected token is not among the expected ones -/
theorem C61_not_itself {T : Tables} {I : Items} (hV : Valid desugared T I) {chars : CharClass} {n : Nat} {doc : Str}
    {got : List STok} {t : STok} {st : List Nat} (h : Drive desugared T code chars n (.init doc) [0] [] (.badToken got t st))
    {a : Nat} (ha : Accepts desugared T st a) : code t.tok ≠ some a := by
  intro e
  obtain ⟨t', ht', rest, hg⟩ := C61_token hV h ha
  obtain ⟨_, hn⟩ := C60_rejects hV h
  refine hn (rest.map fun t => ⟨default, t, default⟩) ?_
  rw [gen_iff_der (start := .Program)] at hg ⊢
  obtain ⟨c, hc, hd⟩ := hg
  refine ⟨c, ?_, hd⟩
  rw [← hc]
  simp [e, ht', Function.comp_def]

/-- The message of a document that is no program: it names the first token no program continues with, or the end, and
every name in its list of expected tokens is that of a kind of token that could have come there. -/
theorem C61_message {T : Tables} {I : Items} (hV : Valid desugared T I) {names : List (Nat × Str)} {chars : CharClass}
    {esc : Char → Str} {doc msg : Str} (h : FromStr desugared T code names chars esc doc (.err (.parseError msg)))
    (hno : ∀ toks, lexDoc chars doc = some toks → ¬ Gen [.non .Program] (toks.map (·.tok))) :
    ∃ (got : List STok) (list : List Str),
      ((∃ t post, yielded chars doc = got ++ t :: post ∧ (∀ rest, ¬ Gen [.non .Program] ((got ++ t :: rest).map (·.tok))) ∧
          msg = (SyntaxError.token t list).debug esc) ∨
        (lexDoc chars doc = some got ∧ msg = (SyntaxError.eof (stopOf got) list).debug esc)) ∧
      ∀ s ∈ list, ∃ a t' rest, (a, s) ∈ names ∧ code t' = some a ∧
        Gen [.non .Program] (got.map (·.tok) ++ t' :: rest) := by
  have names_ : ∀ {st : List Nat} {s : Str}, s ∈ expectedNames desugared T names st →
      ∃ a, (a, s) ∈ names ∧ Accepts desugared T st a := by
    intro st s hs
    simp only [expectedNames, List.mem_map, List.mem_filter, decide_eq_true_eq] at hs
    obtain ⟨⟨a, s'⟩, ⟨hm, ha⟩, rfl⟩ := hs
    exact ⟨a, hm, ha⟩
  cases h with
  | emitErr hd hp he =>
    obtain ⟨h1, h2⟩ := (C60_accepts hV chars doc _).1 ⟨_, hd⟩
    exact absurd h2 (hno _ h1)
  | badToken hd =>
    rename_i n got t st
    obtain ⟨_, _, ⟨post, hy⟩, _⟩ := outcome_right hV hd
    refine ⟨got, _, .inl ⟨t, post, hy, (C60_rejects hV hd).2, rfl⟩, ?_⟩
    intro s hs
    obtain ⟨a, hm, ha⟩ := names_ hs
    obtain ⟨t', ht', rest, hg⟩ := C61_token hV hd ha
    exact ⟨a, t', rest, hm, ht', hg⟩
  | badEof hd =>
    rename_i n got st
    refine ⟨got, _, .inr ⟨(C60_rejects_end hV hd).1, rfl⟩, ?_⟩
    intro s hs
    obtain ⟨a, hm, ha⟩ := names_ hs
    obtain ⟨t', ht', rest, hg⟩ := C61_end hV hd ha
    exact ⟨a, t', rest, hm, ht', hg⟩
  | extra hd =>
    obtain ⟨_, _, hr⟩ := outcome_right hV hd
    exact absurd hr id

/-- `Settles` by evaluation, for the concrete cases -/
def runs (G : List Rule) (T : Tables) (la : Option Nat) : Nat → List Nat → Option Verdict
  | 0, _ => none
  | n + 1, st => match step G T la st with | .done v => some v | .more st' => runs G T la n st'

theorem settles_of_runs {G : List Rule} {T : Tables} {la : Option Nat} : ∀ {n : Nat} {st : List Nat} {v : Verdict},
    runs G T la n st = some v → ∃ k, Settles G T la k st v
  | 0, _, _, h => by cases h
  | n + 1, st, v, h => by
    unfold runs at h
    split at h
    · rename_i v' hs
      injection h with h
      subst h
      exact ⟨1, .done hs⟩
    · rename_i st' hs
      obtain ⟨k, hk⟩ := settles_of_runs h
      exact ⟨k + 1, .more hs hk⟩

set_option maxRecDepth 100000 in
/-- Concrete cases: with the tables of tools/lr_tables.py the parser accepts the demonstration contract, and stops at the
end of the empty document, where `scilla_version` is expected and `contract` is not. -/
theorem C60_witness : (∃ n, Drive desugared demoTables code demoU n (.init demoDoc) [0] [] (.accept demoToks)) ∧
    ∃ n st, Drive desugared demoTables code demoU n (.init []) [0] [] (.badEof [] st) ∧
      (∃ a, code .scillaVersion = some a ∧ Accepts desugared demoTables st a) ∧
      ∃ a, code .contract = some a ∧ ¬ Accepts desugared demoTables st a := by
  refine ⟨(C60_accepts C60_tables _ _ _).2 ⟨demo_lexes, C59_witness.1⟩, ?_⟩
  rw [← lrRules_eq]
  have hr : runs lrRules demoTables none 1 [0] = some (.error [0]) := by decide +kernel
  obtain ⟨k, hk⟩ := settles_of_runs hr
  have h1 : ∃ a, code .scillaVersion = some a ∧ ∃ s, runs lrRules demoTables (some a) 1 [0] = some (.shifted s) :=
    ⟨44, by decide +kernel, [2, 0], by decide +kernel⟩
  have h2 : runs lrRules demoTables (some 33) 1 [0] = some (.error [0]) := by decide +kernel
  obtain ⟨a, ha, s, hs⟩ := h1
  obtain ⟨k1, hk1⟩ := settles_of_runs hs
  obtain ⟨k2, hk2⟩ := settles_of_runs h2
  refine ⟨k, [0], .badEof (by decide +kernel) hk, ⟨a, ha, k1, _, hk1, .inr ⟨s, rfl⟩⟩, 33, by decide +kernel, ?_⟩
  rintro ⟨n, v, hn, hv⟩
  obtain ⟨_, rfl⟩ := hn.det hk2
  rcases hv with e | ⟨_, e⟩ <;> cases e

end Verif
