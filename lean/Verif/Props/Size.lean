import Verif.Proofs.Size
import Verif.Props.Pile
import Verif.Props.Emitter1
import Verif.Props.Blocks
import Verif.Spec.RenameResult
/-
C86  The result is linear in the document.
-/
namespace Verif

theorem tokSize_yielded (U : CharClass) (doc : Str) (a b : Nat) :
    tokSize a b ((yielded U doc).map (·.tok)) ≤ (a + b) * doc.length := by
  obtain ⟨l, τ, hl, e⟩ := yielded_path U doc
  have gen : ∀ (σ : LexState) (l : List Seg) (τ : LexState), Path U σ l τ →
      tokSize a b ((segTokens l).map (·.tok)) ≤ (a + b) * (segText l).length := by
    intro σ l τ h
    induction h with
    | nil => simp [segTokens]
    | @cons σ s σ' l σ'' hs h ih =>
      cases s with
      | white c =>
        simp only [segTokens, segText, List.length_append, Nat.mul_add]; omega
      | comment c =>
        simp only [segTokens, segText, List.length_append, Nat.mul_add]; omega
      | token t x =>
        obtain ⟨m, hm, _, hne, hu, _⟩ := hs.token_spec
        have key : 1 ≤ x.length ∧ t.tok.text.length ≤ x.length := by
          by_cases hk : t.tok = .unknown
          · obtain ⟨_, c, rfl⟩ := hu hk
            rw [hk]
            exact ⟨Nat.le_refl 1, Nat.le_refl 1⟩
          · obtain ⟨rfl, hne, _⟩ := hne hk
            have := hm.length_le
            exact ⟨Nat.le_trans (List.length_pos_iff.2 hne) this, this⟩
        have h1 : a * 1 ≤ a * x.length := Nat.mul_le_mul_left a key.1
        have h2 : b * t.tok.text.length ≤ b * x.length := Nat.mul_le_mul_left b key.2
        simp only [segTokens, segText, Seg.text, List.map_cons, tokSize, List.length_append, Nat.mul_add, Nat.add_mul] at ih ⊢
        omega
  have h := gen _ _ _ hl
  have ht := hl.text
  rw [e] at h
  refine Nat.le_trans h (Nat.mul_le_mul_left _ ?_)
  have : doc = segText l ++ τ.rest := ht.symm
  rw [this, List.length_append]
  omega

/-- C86 on tokens, for every way `a`, `b` of weighing parts against characters. -/
theorem C86_tokens (env : Env) (doc : Str) (ts : List STok) (c : Contract) (hl : lexDoc env.chars doc = some ts)
    (h : fromStr env doc = .ok c) (a b : Nat) : c.size a b ≤ 2 * tokSize a b (ts.map (·.tok)) := by
  obtain ⟨toks, p, hl', hp, hc⟩ := fromStr_ok_iff.1 h
  rw [hl] at hl'
  cases hl'
  have hd := parseProgram_sound hp
  have h64 := C64_document env doc ts p hl hd
  have hm : Pile.Bounded a b (Contract.size a b) (2 * tokSize a b (bare ts)) (Pile.contract p) := Pile.made hd
  have := hm []
  cases e : Pile.contract p [] with
  | fine c' q =>
    rw [e] at h64 this
    simp only at h64 this
    rw [h] at h64
    cases h64
    simp only [Pile.pileSize] at this
    show c.size a b ≤ 2 * tokSize a b (bare ts)
    omega
  | error w x q =>
    rw [e] at h64
    cases x with
    | none => simp only [h] at h64; cases h64
    | some x =>
      simp only at h64
      obtain ⟨o, _, h64⟩ := h64
      rw [h] at h64; cases h64
  | panic => rw [e] at h64; simp only [h] at h64; cases h64

/-- C86 on documents, for every way `a`, `b` of weighing parts against characters; also `yielded` tokens. -/
theorem C86_document (env : Env) (doc : Str) (c : Contract) (h : fromStr env doc = .ok c) (a b : Nat) :
    c.size a b ≤ 2 * ((a + b) * doc.length) := by
  obtain ⟨ts, p, hl, hp, hc⟩ := fromStr_ok_iff.1 h
  have h1 := C86_tokens env doc ts c hl h a b
  have h2 := tokSize_yielded env.chars doc a b
  rw [yielded_of_lexDoc hl] at h2
  omega

/-- C86: type constructors and declarations: at most two for every token. -/
theorem C86_parts (env : Env) (doc : Str) (ts : List STok) (c : Contract) (hl : lexDoc env.chars doc = some ts)
    (h : fromStr env doc = .ok c) : c.parts ≤ 2 * ts.length := by
  have h1 := C86_tokens env doc ts c hl h 1 0
  have h2 : ∀ ts : List Token, tokSize 1 0 ts = ts.length := by
    intro ts
    induction ts with
    | nil => rfl
    | cons t ts ih => simp only [tokSize, ih, List.length_cons]; omega
  rw [h2, List.length_map] at h1
  exact h1

mutual
theorem Ty.names_length : ∀ t : Ty, (t.names.map List.length).sum = t.size 0 1
  | .map k v => by simp [Ty.names, Ty.size, Ty.names_length k, Ty.names_length v]
  | .option t => by simp [Ty.names, Ty.size, Ty.names_length t]
  | .list t => by simp [Ty.names, Ty.size, Ty.names_length t]
  | .pair k v => by simp [Ty.names, Ty.size, Ty.names_length k, Ty.names_length v]
  | .byStr20With tag fs => by simp [Ty.names, Ty.size, fieldsNames_length fs]
  | .other s => by simp [Ty.names, Ty.size]
  | .int32 | .int64 | .int128 | .int256 | .uint32 | .uint64 | .uint128 | .uint256 => by simp [Ty.names, Ty.size]
  | .string | .bNum | .bool | .byStr20 | .byStr | .byStrX _ => by simp [Ty.names, Ty.size]
theorem fieldsNames_length : ∀ fs : List Field, ((fieldsNames fs).map List.length).sum = fieldsSize 0 1 fs
  | [] => rfl
  | ⟨x, t⟩ :: fs => by simp [fieldsNames, fieldsSize, Ty.names_length t, fieldsNames_length fs, Nat.add_assoc]
end

/-- C86: all names of the result together: at most twice as many characters as in the document. -/
theorem C86_names (env : Env) (doc : Str) (c : Contract) (h : fromStr env doc = .ok c) :
    (c.names.map List.length).sum ≤ 2 * doc.length := by
  have h1 := C86_document env doc c h 0 1
  have h2 : ∀ ts : List Transition, ((ts.flatMap fun t => t.name :: fieldsNames t.params).map List.length).sum =
      transitionsSize 0 1 ts := by
    intro ts
    induction ts with
    | nil => rfl
    | cons t ts ih => simp [transitionsSize, fieldsNames_length, ih, Nat.add_assoc]
  have h3 : (c.names.map List.length).sum = c.size 0 1 := by
    simp only [Contract.names, List.map_cons, List.map_append, List.sum_cons, List.sum_append, h2, fieldsNames_length,
      Contract.size]
    omega
  omega

/-- C86: parts of the result: at most twice as many as the document has characters. -/
theorem C86_parts_document (env : Env) (doc : Str) (c : Contract) (h : fromStr env doc = .ok c) :
    c.parts ≤ 2 * doc.length := by
  have := C86_document env doc c h 1 0
  simp only [Contract.parts]
  omega

/-- C86 on a document: more than three parts. -/
theorem C86_witness : ∃ c ts, fromStr demoEnv demoDoc = .ok c ∧ lexDoc demoU demoDoc = some ts ∧ 3 < c.parts ∧
    c.parts ≤ 2 * ts.length :=
  ⟨demoContract, demoToks, demo_fromStr, demo_lexes, by decide +kernel,
    C86_parts demoEnv demoDoc demoToks demoContract demo_lexes demo_fromStr⟩

def twiceDoc : Str :=
  str! "scilla_version 0 contract " ++ List.replicate 300 'L' ++ str! " () field f : Event = x"

/-- C86: the factor is needed.  The name of the contract is reported twice, once as the type of a field of type `Event`: the names
of the result have more characters than the document. -/
theorem C86_factor : ∃ c, fromStr demoEnv twiceDoc = .ok c ∧ twiceDoc.length < (c.names.map List.length).sum := by
  have h : (match fromStr demoEnv twiceDoc with
      | .ok c => decide (twiceDoc.length < (c.names.map List.length).sum)
      | _ => false) = true := by decide +kernel
  cases e : fromStr demoEnv twiceDoc with
  | ok c => rw [e] at h; exact ⟨c, rfl, of_decide_eq_true h⟩
  | err x => rw [e] at h; cases h
  | panic => rw [e] at h; cases h

end Verif
