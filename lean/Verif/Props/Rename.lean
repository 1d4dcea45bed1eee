import Verif.Proofs.RenameEmit
import Verif.Proofs.StripEmit
import Verif.Props.Emitter1
import Verif.Props.Lexer1
/-
C49: names are opaque.  C50: nothing in a result is invented.  C51: successes do not depend on the wording of
errors.  `Renaming`, `Contract.ren` and `Contract.names` are in Spec/RenameResult.lean; `Token.ren f` applies `f`
to the text of names, numbers, hexadecimal and string literals and leaves keywords and punctuation alone.
-/
namespace Verif

/-! ## C49 -/

/-- Whether a token sequence is a program depends only on the kinds of the tokens, not on their texts. -/
theorem C49_kinds (a b : List STok)
    (h : a.map (fun t => t.tok.ren fun _ => []) = b.map (fun t => t.tok.ren fun _ => [])) :
    (parseProgram a).isSome = (parseProgram b).isSome :=
  parse_kinds h

/-- the same result up to renaming and the wording of errors -/
inductive Renamed (f : Str → Str) : ParseResult → ParseResult → Prop
  | ok (c : Contract) : Renamed f (.ok c) (.ok (c.ren f))
  | err (m m' : Str) : Renamed f (.err (.parseError m)) (.err (.parseError m'))
  | panic : Renamed f .panic .panic

theorem token_ren_tok (f : Str → Str) {ts ts' : List STok}
    (h : ts'.map (·.tok) = ts.map fun t => t.tok.ren f) : bare ts' = bare (ts.map (STok.ren f)) := by
  rw [bare, bare, h, List.map_map]; rfl

/-- C49: renaming names (and literals) consistently throughout a document renames them in the result and changes
nothing else: the renamed document is accepted, rejected or makes the crate panic just as the original. -/
theorem C49_rename (f : Str → Str) (hf : Renaming f) (env env' : Env) (d d' : Str) (ts ts' : List STok)
    (hl : lexDoc env.chars d = some ts) (hl' : lexDoc env'.chars d' = some ts')
    (h : ts'.map (·.tok) = ts.map fun t => t.tok.ren f) :
    Renamed f (fromStr env d) (fromStr env' d') := by
  have h1 := parse_bare (token_ren_tok f h)
  rw [parse_ren hf] at h1
  cases hp : parseProgram ts with
  | none =>
    rw [hp] at h1
    have h2 : parseProgram ts' = none := by
      cases e : parseProgram ts' with
      | none => rfl
      | some q => rw [e] at h1; simp at h1
    simp only [fromStr, hl, hl', hp, h2]
    exact .err _ _
  | some p =>
    rw [hp] at h1
    cases e : parseProgram ts' with
    | none => rw [e] at h1; simp at h1
    | some q =>
      rw [e] at h1
      simp only [Option.map_some, Option.some.injEq] at h1
      have h2 : emitProgram env'.dbg q = emitProgram env'.dbg (p.ren f) := by
        rw [← emitProgram_strip _ q, h1, emitProgram_strip]
      have h3 := emitProgram_ren env.dbg env'.dbg hf p
      simp only [fromStr, hl, hl', hp, e, h2]
      revert h3
      cases emitProgram env.dbg p <;> cases emitProgram env'.dbg (p.ren f) <;> simp only [OutRel] <;>
        intro h3 <;> first
          | exact absurd h3 id
          | (subst h3; exact .ok _)
          | exact .err _ _
          | exact .panic

/-- in particular -/
theorem C49_rename_ok (f : Str → Str) (hf : Renaming f) (env : Env) (d d' : Str) (ts ts' : List STok)
    (hl : lexDoc env.chars d = some ts) (hl' : lexDoc env.chars d' = some ts')
    (h : ts'.map (·.tok) = ts.map fun t => t.tok.ren f) (c : Contract) (hc : fromStr env d = .ok c) :
    fromStr env d' = .ok (c.ren f) := by
  have := C49_rename f hf env env d d' ts ts' hl hl' h
  rw [hc] at this
  generalize fromStr env d' = r at this ⊢
  cases this
  rfl

/-- A renaming that is not the identity, and a document that is renamed by it with a result that changes. -/
def demoRenaming (s : Str) : Str :=
  if s = str! "Foo" then str! "Quux" else if s = str! "a" then str! "owner_1" else s

def renDoc : Str := str! "scilla_version 0 contract Foo (a : Option Foo, b : ByStr20 with contract field a : Uint32 end)"
def renDoc' : Str :=
  str! "scilla_version 0 contract Quux (owner_1 : Option Quux,\n b : ByStr20 with contract field owner_1 : Uint32 end)"

theorem demoRenaming_ok : Renaming demoRenaming := by
  have hn : ∀ x ∈ [str! "Foo", str! "a", str! "Quux", str! "owner_1"], ¬ Reserved x := by
    unfold Reserved; decide
  constructor
  · intro s hs
    unfold demoRenaming
    rw [if_neg (by rintro rfl; exact hn _ (by decide) hs), if_neg (by rintro rfl; exact hn _ (by decide) hs)]
  · intro s hs
    unfold demoRenaming at hs
    split at hs
    · exact absurd hs (hn _ (by decide))
    · split at hs
      · exact absurd hs (hn _ (by decide))
      · exact hs

example : ∃ ts ts' c, lexDoc demoU renDoc = some ts ∧ lexDoc demoU renDoc' = some ts' ∧
    ts'.map (·.tok) = ts.map (fun t => t.tok.ren demoRenaming) ∧ ts' ≠ ts ∧
    fromStr demoEnv renDoc = .ok c ∧ c.ren demoRenaming ≠ c := by
  refine ⟨_, _, _, rfl, rfl, by decide +kernel, by decide +kernel,
    (by decide +kernel : fromStr demoEnv renDoc = .ok ⟨str! "Foo", [⟨str! "a", .option (.other (str! "Foo"))⟩,
      ⟨str! "b", .byStr20With (str! "contract") [⟨str! "a", .uint32⟩]⟩], [], []⟩), by decide +kernel⟩

/-- Renaming to or from a reserved name does change more than the names: the condition is needed. -/
theorem C49_reserved_matter :
    fromStr demoEnv (str! "scilla_version 0 contract C (a : Foo)") =
      .ok ⟨str! "C", [⟨str! "a", .other (str! "Foo")⟩], [], []⟩ ∧
    fromStr demoEnv (str! "scilla_version 0 contract C (a : Bool)") = .ok ⟨str! "C", [⟨str! "a", .bool⟩], [], []⟩ ∧
    fromStr demoEnv (str! "scilla_version 0 contract C (a : Option)") = .panic := by
  refine ⟨?_, ?_, ?_⟩ <;> decide +kernel

/-! ## C51 -/

mutual
theorem Ty.ren_id : ∀ t : Ty, t.ren id = t
  | .map k v => by rw [Ty.ren, Ty.ren_id k, Ty.ren_id v]
  | .option t => by rw [Ty.ren, Ty.ren_id t]
  | .pair a b => by rw [Ty.ren, Ty.ren_id a, Ty.ren_id b]
  | .list t => by rw [Ty.ren, Ty.ren_id t]
  | .byStr20With tag fs => by rw [Ty.ren, renFields_id fs]; rfl
  | .other s => rfl
  | .int32 => rfl
  | .int64 => rfl
  | .int128 => rfl
  | .int256 => rfl
  | .uint32 => rfl
  | .uint64 => rfl
  | .uint128 => rfl
  | .uint256 => rfl
  | .string => rfl
  | .bNum => rfl
  | .byStr => rfl
  | .byStrX n => rfl
  | .byStr20 => rfl
  | .bool => rfl
theorem renFields_id : ∀ fs : List Field, renFields id fs = fs
  | [] => rfl
  | ⟨x, t⟩ :: fs => by rw [renFields, Ty.ren_id t, renFields_id fs]; rfl
end

theorem Field.ren_id : Field.ren id = id := by
  funext ⟨x, t⟩
  simp [Field.ren, Ty.ren_id]

theorem Contract.ren_id (c : Contract) : c.ren id = c := by
  have : Transition.ren id = id := by
    funext ⟨n, ps⟩
    simp [Transition.ren, Field.ren_id]
  cases c
  simp [Contract.ren, Field.ren_id, this]

theorem Token.ren_id (t : Token) : t.ren id = t := by cases t <;> rfl

theorem Renaming.id : Renaming _root_.id := ⟨fun _ _ => rfl, fun _ h => h⟩

/-- C51: which documents are accepted, and the contract they give, does not depend on how the crate words its errors:
not on the `Debug` rendering of stack objects, and not on the text of syntax errors. -/
theorem C51_env (env env' : Env) (hu : env.chars = env'.chars) (d : Str) (c : Contract) :
    fromStr env d = .ok c ↔ fromStr env' d = .ok c := by
  have key : ∀ {env env' : Env}, env.chars = env'.chars → fromStr env d = .ok c → fromStr env' d = .ok c := by
    intro env env' hu h
    obtain ⟨toks, p, h1, h2, h3⟩ := fromStr_ok_iff.mp h
    have := C49_rename id Renaming.id env env' d d toks toks h1 (hu ▸ h1) (by simp [Token.ren_id])
    rw [h] at this
    generalize fromStr env' d = r at this
    cases this
    rw [Contract.ren_id]
  exact ⟨key hu, key hu.symm⟩

/-- ... and neither does whether the crate panics. -/
theorem C51_panic (env env' : Env) (hu : env.chars = env'.chars) (d : Str) :
    fromStr env d = .panic ↔ fromStr env' d = .panic := by
  have key : ∀ {env env' : Env}, env.chars = env'.chars → fromStr env d = .panic → fromStr env' d = .panic := by
    intro env env' hu h
    cases hl : lexDoc env.chars d with
    | none =>
      have hl' : lexDoc env'.chars d = none := hu ▸ hl
      have hv : Viable (yielded env.chars d) := by
        simp only [fromStr, hl] at h
        split at h
        · assumption
        · cases h
      rw [hu] at hv
      simp only [fromStr, hl', if_pos hv]
    | some toks =>
      have := C49_rename id Renaming.id env env' d d toks toks hl (hu ▸ hl) (by simp [Token.ren_id])
      rw [h] at this
      generalize fromStr env' d = r at this
      cases this
      rfl
  exact ⟨key hu, key hu.symm⟩

/-! ## C50 -/

mutual
theorem Ty.names_ren (f : Str → Str) : ∀ t : Ty, (t.ren f).names = t.names.map f
  | .map k v => by simp [Ty.ren, Ty.names, Ty.names_ren f k, Ty.names_ren f v]
  | .option t => by simp [Ty.ren, Ty.names, Ty.names_ren f t]
  | .pair a b => by simp [Ty.ren, Ty.names, Ty.names_ren f a, Ty.names_ren f b]
  | .list t => by simp [Ty.ren, Ty.names, Ty.names_ren f t]
  | .byStr20With tag fs => by simp [Ty.ren, Ty.names, fieldsNames_ren f fs]
  | .other s => rfl
  | .int32 => rfl
  | .int64 => rfl
  | .int128 => rfl
  | .int256 => rfl
  | .uint32 => rfl
  | .uint64 => rfl
  | .uint128 => rfl
  | .uint256 => rfl
  | .string => rfl
  | .bNum => rfl
  | .byStr => rfl
  | .byStrX n => rfl
  | .byStr20 => rfl
  | .bool => rfl
theorem fieldsNames_ren (f : Str → Str) : ∀ fs : List Field,
    fieldsNames (renFields f fs) = (fieldsNames fs).map f
  | [] => rfl
  | ⟨x, t⟩ :: fs => by simp [renFields, fieldsNames, Ty.names_ren f t, fieldsNames_ren f fs]
end

theorem Contract.names_ren (f : Str → Str) (c : Contract) : (c.ren f).names = c.names.map f := by
  have h : ∀ l : List Transition, (l.map (Transition.ren f)).flatMap (fun t => t.name :: fieldsNames t.params) =
      (l.flatMap fun t => t.name :: fieldsNames t.params).map f := by
    intro l
    induction l with
    | nil => rfl
    | cons t l ih =>
      simp only [List.map_cons, List.flatMap_cons, List.map_append, ih]
      simp [Transition.ren, ← renFields_map, fieldsNames_ren]
  simp only [Contract.names, Contract.ren, ← renFields_map, fieldsNames_ren, h, List.map_cons, List.map_append]

/-- the text of the tokens that carry one -/
def Token.payload : Token → Option Str
  | .identifier s | .customIdentifier s | .specialIdentifier s | .templateIdentifier s
  | .byStrWithSize s | .number s | .hexNumber s | .stringLiteral s => some s
  | _ => none

theorem Token.ren_eq_self (f : Str → Str) (t : Token) (h : ∀ s, t.payload = some s → f s = s) :
    t.ren f = t := by
  cases t <;> simp only [Token.ren] <;> rw [h _ rfl]

/-- move one name out of the way -/
def moveName (s : Str) (t : Str) : Str := if t = s then s ++ ['_'] else t

theorem moveName_renaming {s : Str} (hs : ¬ Reserved s) : Renaming (moveName s) := by
  have hn : ¬ Reserved (s ++ ['_']) := by
    rintro (h | ⟨r, h⟩)
    · have : ∀ x ∈ fixedNames, x.getLast? ≠ some '_' := by decide
      exact this _ h (by simp)
    · rcases List.append_eq_append_iff.mp h with ⟨a, h1, h2⟩ | ⟨a, h1, h2⟩
      · exact hs (.inr ⟨a, h1.symm⟩)
      · cases a with
        | nil => exact hs (.inr ⟨[], by simpa using h1⟩)
        | cons x a =>
          simp only [List.cons_append, List.cons.injEq] at h2
          obtain ⟨rfl, h2⟩ := h2
          have h3 := congrArg (fun l : List Char => decide ('_' ∈ l)) h1
          simp at h3
  constructor
  · intro t ht
    unfold moveName
    split
    · rename_i e; exact absurd (e ▸ ht) hs
    · rfl
  · intro t ht
    unfold moveName at ht
    split at ht
    · exact absurd ht hn
    · exact ht

theorem moveName_ne (s t : Str) : moveName s t ≠ s := by
  unfold moveName
  split
  · intro h
    have := congrArg List.length h
    simp at this
  · assumption

/-- C50: every name in a result — of the contract, a parameter, a field, a transition, a user-defined type, a field
of an address type — is the text of a token of the document, or a reserved one. -/
theorem C50_tokens (env : Env) (d : Str) (ts : List STok) (c : Contract)
    (hl : lexDoc env.chars d = some ts) (h : fromStr env d = .ok c) :
    ∀ s ∈ c.names, Reserved s ∨ ∃ t ∈ ts, t.tok.payload = some s := by
  intro s hs
  by_cases hr : Reserved s
  · exact .inl hr
  · by_cases ht : ∃ t ∈ ts, t.tok.payload = some s
    · exact .inr ht
    · exfalso
      have hf := moveName_renaming hr
      have := C49_rename_ok (moveName s) hf env d d ts ts hl hl (by
        apply List.map_congr_left
        intro t hm
        refine (Token.ren_eq_self _ _ fun x hx => ?_).symm
        unfold moveName
        rw [if_neg]
        rintro rfl
        exact ht ⟨t, hm, hx⟩) c h
      rw [h] at this
      injection this with this
      rw [this, Contract.names_ren] at hs
      obtain ⟨x, _, hx⟩ := List.mem_map.mp hs
      exact moveName_ne s x hx

theorem payload_text {t : Token} {s : Str} (h : t.payload = some s) : t.text = s ∧ t ≠ .unknown := by
  cases t <;> simp only [Token.payload, Option.some.injEq, reduceCtorEq] at h <;> subst h <;>
    exact ⟨rfl, by simp⟩

/-- C50 in terms of the document: every name in a result that is not a reserved one is written in the document. -/
theorem C50_written (env : Env) (d : Str) (c : Contract) (h : fromStr env d = .ok c) :
    ∀ s ∈ c.names, Reserved s ∨ s <:+: d := by
  intro s hs
  obtain ⟨ts, p, hl, _, _⟩ := fromStr_ok_iff.mp h
  rcases C50_tokens env d ts c hl h s hs with hr | ⟨t, ht, e⟩
  · exact .inl hr
  · right
    obtain ⟨e1, e2⟩ := payload_text e
    obtain ⟨pre, post, h1, _, _⟩ := C05_text_is_slice env.chars d t (by rw [yielded_of_lexDoc hl]; exact ht) e2
    rw [e1] at h1
    exact ⟨pre, post, h1.symm⟩

/-- The names in the result of `renDoc`. -/
example : ∃ c, fromStr demoEnv renDoc = .ok c ∧
    c.names = [str! "Foo", str! "a", str! "Foo", str! "b", str! "contract", str! "a"] :=
  ⟨⟨str! "Foo", [⟨str! "a", .option (.other (str! "Foo"))⟩,
      ⟨str! "b", .byStr20With (str! "contract") [⟨str! "a", .uint32⟩]⟩], [], []⟩, by decide +kernel, by decide +kernel⟩

end Verif
