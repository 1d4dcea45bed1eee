import Verif.Spec.Blocks
import Verif.Proofs.ParserScan
/-
The block structure of derivable token sequences.
-/
namespace Verif

theorem Open.reads_append (s : Open) (u v : List Token) :
    s.reads (u ++ v) = (s.reads u).bind fun s' => s'.reads v := by
  induction u generalizing s with
  | nil => rfl
  | cons t u ih =>
    simp only [List.cons_append, Open.reads]
    cases s.read t with
    | none => rfl
    | some s' => exact ih s'

/-- after this text, was the last token `)`? -/
def afterText : Bool → List Token → Bool
  | b, [] => b
  | _, .closeParen :: ts => afterText true ts
  | _, _ :: ts => afterText false ts

theorem afterText_append (b : Bool) (u v : List Token) : afterText b (u ++ v) = afterText (afterText b u) v := by
  induction u generalizing b with
  | nil => rfl
  | cons t u ih => cases t <;> exact ih _

/-- a phrase of this kind may be read in this state -/
def wellPlaced : NT → Bool → List Token → Prop
  | .withConstraint, b, st => b = true ∧ st = []
  | .compDef, _, st => st = []
  | .transDef, _, st => st = []
  | .procDef, _, st => st = []
  | .contractDef, _, st => st = []
  | .program, _, st => st = []
  | .opt .compBody, _, _ => False
  | .opt n, b, st => wellPlaced n b st
  | .star .compBody, _, _ => False
  | .plus .compBody, _, _ => False
  | .star n, _, st => ∀ b, wellPlaced n b st
  | .plus n, _, st => ∀ b, wellPlaced n b st
  | _, _, _ => True

/-- the body of a component closes the block its keyword opened -/
def upTo : NT → List Token → List Token
  | .compBody, st => .end_ :: st
  | _, st => st

theorem varId_after {w : List STok} {v : Val .varId} (d : Derives .varId w v) (b : Bool) : afterText b (bare w) = false := by
  cases d with
  | varName h => cases h; subst_vars; rfl
  | varSpecial h => cases h; subst_vars; rfl
  | varNamespace e h1 h2 => cases h2; subst_vars; simp [afterText_append, afterText]

theorem typeName_after {w : List STok} {v : Val .typeName} (d : Derives .typeName w v) (b : Bool) :
    afterText b (bare w) = false := by
  cases d with
  | typeNameBytes h => cases h; subst_vars; rfl
  | typeNameEvent h => subst_vars; rfl
  | typeNameCustom h => cases h; subst_vars; rfl

theorem compParams_after {w : List STok} {v : Val .compParams} (d : Derives .compParams w v) (b : Bool) :
    afterText b (bare w) = true := by
  cases d with
  | compParams e h1 h2 => subst_vars; simp [afterText_append, afterText]

theorem Derives.blocks {n : NT} {w : List STok} {v : Val n} (d : Derives n w v) :
    ∀ b st, wellPlaced n b st → Open.reads ⟨b, upTo n st⟩ (bare w) = some ⟨afterText b (bare w), st⟩ := by
  induction d
  case starCons n w1 v w2 vs d1 d2 ih1 ih2 =>
    intro b st hp
    by_cases hn : n = .compBody
    · subst hn; exact hp.elim
    · have h1 : ∀ b, wellPlaced n b st := by cases n <;> first | exact hp | exact absurd rfl hn
      have hb : upTo n st = st := by cases n <;> first | rfl | exact absurd rfl hn
      have h2 : ∀ b, wellPlaced (.star n) b st := fun b => by cases n <;> first | exact h1 | exact absurd rfl hn
      have e1 := ih1 b st (h1 b)
      rw [hb] at e1
      have e2 := ih2 (afterText b (bare w1)) st (h2 _)
      simp only [upTo] at e2 ⊢
      rw [bare_append, Open.reads_append, e1, afterText_append]
      exact e2
  case plusIntro n w1 v w2 vs d1 d2 ih1 ih2 =>
    intro b st hp
    by_cases hn : n = .compBody
    · subst hn; exact hp.elim
    · have h1 : ∀ b, wellPlaced n b st := by cases n <;> first | exact hp | exact absurd rfl hn
      have h2 : ∀ b, wellPlaced (.star n) b st := fun b => by cases n <;> first | exact h1 | exact absurd rfl hn
      have hb : upTo n st = st := by cases n <;> first | rfl | exact absurd rfl hn
      have e1 := ih1 b st (h1 b)
      rw [hb] at e1
      have e2 := ih2 (afterText b (bare w1)) st (h2 _)
      simp only [upTo] at e2 ⊢
      rw [bare_append, Open.reads_append, e1, afterText_append]
      exact e2
  case optSome n w v d ih =>
    intro b st hp
    by_cases hn : n = .compBody
    · subst hn; exact hp.elim
    · have h1 : wellPlaced n b st := by cases n <;> first | exact hp | exact absurd rfl hn
      have hb : upTo n st = st := by cases n <;> first | rfl | exact absurd rfl hn
      have e1 := ih b st h1
      rw [hb] at e1
      exact e1
  case addrEmpty h _ =>
    have h0 := typeName_after h
    intro b st hp
    simp_all [-Bool.forall_bool, wellPlaced, upTo, Open.reads, Open.read, Open.reads_append, afterText, afterText_append]
  case addrContract h _ _ _ =>
    have h0 := typeName_after h
    intro b st hp
    simp_all [-Bool.forall_bool, wellPlaced, upTo, Open.reads, Open.read, Open.reads_append, afterText, afterText_append]
  case addrLibrary h _ =>
    have h0 := typeName_after h
    intro b st hp
    simp_all [-Bool.forall_bool, wellPlaced, upTo, Open.reads, Open.read, Open.reads_append, afterText, afterText_append]
  case addrSpecial h _ _ _ =>
    have h0 := typeName_after h
    intro b st hp
    simp_all [-Bool.forall_bool, wellPlaced, upTo, Open.reads, Open.read, Open.reads_append, afterText, afterText_append]
  case exprMatch h _ _ _ =>
    have h0 := varId_after h
    intro b st hp
    simp_all [-Bool.forall_bool, wellPlaced, upTo, Open.reads, Open.read, Open.reads_append, afterText, afterText_append]
  case stMatch h _ _ _ =>
    have h0 := varId_after h
    intro b st hp
    simp_all [-Bool.forall_bool, wellPlaced, upTo, Open.reads, Open.read, Open.reads_append, afterText, afterText_append]
  case contractDef h _ _ _ _ _ _ _ _ =>
    have h0 := compParams_after h
    intro b st hp
    simp_all [-Bool.forall_bool, wellPlaced, upTo, Open.reads, Open.read, Open.reads_append, afterText, afterText_append]
  all_goals
    intro b st hp
    simp_all [-Bool.forall_bool, wellPlaced, upTo, Open.reads, Open.read, Open.reads_append, afterText, afterText_append]

/-- The blocks open at a place are determined by what follows. -/
theorem Open.reads_unique (ts : List Token) : ∀ (s s' : Open) (b b' : Bool), s.reads ts = some ⟨b, []⟩ →
    s'.reads ts = some ⟨b', []⟩ → s.closers = s'.closers := by
  induction ts with
  | nil =>
    intro s s' b b' h h'
    simp only [Open.reads, Option.some.injEq] at h h'
    rw [h, h']
  | cons t ts ih =>
    intro ⟨x, st⟩ ⟨x', st'⟩ b b' h h'
    simp only [Open.reads, Option.bind_eq_some_iff] at h h'
    obtain ⟨s1, k1, l1⟩ := h
    obtain ⟨s2, k2, l2⟩ := h'
    have e := ih s1 s2 b b' l1 l2
    clear ih l1 l2
    cases t
    case with_ =>
      simp only [Open.read] at k1 k2
      split at k1 <;> split at k2 <;> (repeat' split at k1) <;> (repeat' split at k2) <;> simp_all <;> grind
    all_goals
      simp only [Open.read] at k1 k2
      try (split at k1 <;> split at k2)
      all_goals first
        | cases k1; done
        | cases k2; done
        | (cases k1; cases k2; rcases st with _ | ⟨c, st⟩ <;> rcases st' with _ | ⟨c', st'⟩ <;> simp_all)

end Verif
