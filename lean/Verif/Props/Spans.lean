import Verif.Proofs.SpansDerives
import Verif.Props.Parser1
/-
C19: the spans recorded in the syntax tree.
-/
namespace Verif

/-- The nodes of the forest lie between the byte offsets `lo` and `hi`, from left to right without
overlap, none of them is empty, and the children of a node lie inside the node. -/
inductive Ordered : Nat → Nat → List SpanTree → Prop
  | nil (lo hi : Nat) : lo ≤ hi → Ordered lo hi []
  | cons (lo hi : Nat) (s e : Pos) (children rest : List SpanTree) : lo ≤ s.position →
      s.position < e.position → Ordered s.position e.position children →
      Ordered e.position hi rest → Ordered lo hi (.node s e children :: rest)

/-- tokens in order: non-empty, from left to right without overlap, between two offsets -/
inductive TokOrd : Nat → Nat → List STok → Prop
  | nil (lo hi : Nat) : lo ≤ hi → TokOrd lo hi []
  | cons (lo hi : Nat) (t : STok) (w : List STok) : lo ≤ t.start.position →
      t.start.position < t.stop.position → TokOrd t.stop.position hi w → TokOrd lo hi (t :: w)

theorem TokOrd.le {lo hi : Nat} {w : List STok} (h : TokOrd lo hi w) : lo ≤ hi := by
  induction h with
  | nil => assumption
  | cons => omega

theorem TokOrd.weaken {lo lo' hi : Nat} {w : List STok} (h : TokOrd lo hi w) (hl : lo' ≤ lo) :
    TokOrd lo' hi w := by
  cases h with
  | nil _ _ h => exact .nil _ _ (by omega)
  | cons _ _ t w h1 h2 h3 => exact .cons _ _ _ _ (by omega) h2 h3

theorem TokOrd.split : ∀ {a b : List STok} {lo hi : Nat}, TokOrd lo hi (a ++ b) →
    ∃ m, TokOrd lo m a ∧ TokOrd m hi b
  | [], _, lo, _, h => ⟨lo, .nil _ _ (Nat.le_refl _), h⟩
  | t :: a, _, lo, hi, h => by
    cases h with
    | cons _ _ _ _ h1 h2 h3 =>
      obtain ⟨m, ha, hb⟩ := TokOrd.split h3
      exact ⟨m, .cons _ _ _ _ h1 h2 ha, hb⟩

theorem TokOrd.bounds : ∀ {w : List STok} {lo hi : Nat} (p : Pos), TokOrd lo hi w →
    p.position ≤ lo → p.position ≤ (stopFrom p w).position ∧ (stopFrom p w).position ≤ hi ∧
      TokOrd lo (stopFrom p w).position w ∨ w = []
  | [], _, _, _, _, _ => .inr rfl
  | t :: w, lo, hi, p, h, hp => by
    left
    cases h with
    | cons _ _ _ _ h1 h2 h3 =>
      rcases TokOrd.bounds t.stop h3 (Nat.le_refl _) with ⟨a, b, c⟩ | rfl
      · refine ⟨?_, b, .cons _ _ _ _ h1 h2 c⟩
        simp only [stopFrom]; omega
      · have := h3.le
        simp only [stopFrom]
        exact ⟨by omega, by omega, .cons _ _ _ _ h1 h2 (.nil _ _ (Nat.le_refl _))⟩

theorem TokOrd.run {w : List STok} {lo hi : Nat} (h : TokOrd lo hi w) (hw : w ≠ []) :
    lo ≤ (startOf w).position ∧ (startOf w).position < (stopOf w).position ∧
      (stopOf w).position ≤ hi ∧ TokOrd (startOf w).position (stopOf w).position w := by
  cases h with
  | nil => exact absurd rfl hw
  | cons _ _ t w h1 h2 h3 =>
    simp only [startOf, stopOf, stopFrom]
    rcases TokOrd.bounds t.stop h3 (Nat.le_refl _) with ⟨a, b, c⟩ | rfl
    · exact ⟨h1, by omega, b, .cons _ _ _ _ (Nat.le_refl _) h2 c⟩
    · simp only [stopFrom]
      exact ⟨h1, h2, h3.le, .cons _ _ _ _ (Nat.le_refl _) h2 (.nil _ _ (Nat.le_refl _))⟩

theorem Fits.ordered {w : List STok} {f : List SpanTree} (h : Fits w f) :
    ∀ lo hi, TokOrd lo hi w → Ordered lo hi f := by
  induction h with
  | nil => intro lo hi ho; exact .nil _ _ ho.le
  | cons b r a c rest h1 h0 h2 h3 ih2 ih3 =>
    intro lo hi ho
    obtain ⟨m, hb, ho⟩ := ho.split
    obtain ⟨m', hr, ha⟩ := ho.split
    obtain ⟨r1, r2, r3, r4⟩ := hr.run h1
    have := hb.le
    exact .cons _ _ _ _ _ _ (by omega) r2 (ih2 _ _ r4) (ih3 _ _ (ha.weaken r3))

theorem tokOrd_of : ∀ (ts : List STok) (lo hi : Nat), lo ≤ hi → (∀ t ∈ ts, lo ≤ t.start.position) →
    (∀ t ∈ ts, t.start.position < t.stop.position ∧ t.stop.position ≤ hi) →
    ts.Pairwise (fun a b => a.stop.position ≤ b.start.position) → TokOrd lo hi ts
  | [], lo, hi, h, _, _, _ => .nil _ _ h
  | t :: ts, lo, hi, h, h1, h2, h3 => by
    rw [List.pairwise_cons] at h3
    have ht := h2 t (by simp)
    exact .cons _ _ _ _ (h1 t (by simp)) ht.1
      (tokOrd_of ts _ _ ht.2 (fun b hb => h3.1 b hb) (fun b hb => h2 b (by simp [hb])) h3.2)

/-- C19: in the tree of an accepted token list, every node records the start of the first and the end
of the last of its tokens; these are a non-empty run of consecutive tokens which is a phrase of the
grammar with exactly this tree; the runs of siblings
follow one another in the order of the source; the run of a child is part of the run of its parent. -/
theorem C19_spans_fit (ts : List STok) (p : NodeProgram) (h : parseProgram ts = some p) :
    Fits ts p.spans := (parseProgram_sound h).fits

/-- The same for every phrase of the grammar, not only for whole programs. -/
theorem C19_node_span (n : NT) (w : List STok) (v : Val n) (d : Derives n w v) : Fits w (spansV n v) :=
  d.fits

/-- C19 in byte offsets of the document: spans are non-empty, children are inside their parents,
siblings are disjoint and in order. -/
theorem C19_byte_order (U : CharClass) (doc : Str) (ts : List STok) (p : NodeProgram)
    (hl : lexDoc U doc = some ts) (h : parseProgram ts = some p) :
    Ordered 0 (bytes doc) p.spans := by
  obtain ⟨h1, h2⟩ := C04_spans U doc
  rw [yielded_of_lexDoc hl] at h1 h2
  refine (C19_spans_fit ts p h).ordered _ _ (tokOrd_of ts _ _ (Nat.zero_le _) (fun _ _ => Nat.zero_le _) ?_
    (h2.imp fun h => h.2))
  intro t ht
  obtain ⟨_, b, c⟩ := h1 t ht
  refine ⟨b ?_, c⟩
  intro hu
  have := (parseProgram_sound h).usable t ht
  rw [hu] at this
  simp [neverUsed] at this

/-! ### The two exceptions -/

def NT.noImport : NT → Bool
  | .importDecls | .program => false
  | .star n | .plus n | .opt n => n.noImport
  | _ => true

theorem Derives.noImport {n : NT} {w : List STok} {v : Val n} (d : Derives n w v) :
    n.noImport = true → ∀ t ∈ w, t.tok ≠ .import_ := by
  have key : n.noImport = true → w.all (fun t => t.tok != .import_) = true := by
    induction d <;> simp_all [NT.noImport, List.all_append]
  intro hn t ht
  simpa using List.all_eq_true.mp (key hn) t ht

/-- The node of the import declarations ends where they end, but starts at the *last* `import`. -/
theorem C19_import_span (w : List STok) (v : W NodeImportDeclarations)
    (d : Derives .importDecls w v) :
    v.stop = stopOf w ∧ ∃ pre t post, w = pre ++ t :: post ∧ t.tok = .import_ ∧ v.start = t.start ∧
      ∀ u ∈ post, u.tok ≠ .import_ := by
  cases d with
  | importMore h d1 d2 =>
    subst h
    exact ⟨rfl, _, _, _, rfl, rfl, rfl, d2.noImport rfl⟩
  | importFirst h d1 =>
    subst h
    exact ⟨rfl, [], _, _, rfl, rfl, rfl, d1.noImport rfl⟩

/-- The tag of an address type has the span of the whole address type, unless it is a special
identifier (`_codehash`), which has its own span. -/
theorem C19_address_tag (w : List STok) (v : W NodeAddressType) (d : Derives .addressType w v) :
    ∃ i tag fs, v.node = .mk i tag fs ∧
      ((tag.start = startOf w ∧ tag.stop = stopOf w ∧
          (tag.node = [] ∨ tag.node = str! "contract" ∨ tag.node = str! "library")) ∨
        ∃ t ∈ w, t.tok = .specialIdentifier tag.node ∧ tag.start = t.start ∧ tag.stop = t.stop) := by
  cases d with
  | addrEmpty h d1 => exact ⟨_, _, _, rfl, .inl ⟨rfl, rfl, .inl rfl⟩⟩
  | addrContract h d1 d2 => exact ⟨_, _, _, rfl, .inl ⟨rfl, rfl, .inr (.inl rfl)⟩⟩
  | addrLibrary h d1 => exact ⟨_, _, _, rfl, .inl ⟨rfl, rfl, .inr (.inr rfl)⟩⟩
  | addrSpecial h d1 d2 =>
    cases d2 with
    | specialId h2 =>
      subst h2 h
      exact ⟨_, _, _, rfl, .inr ⟨_, by simp; right; right; left; rfl, rfl, rfl, rfl⟩⟩

/-- The forest of the demonstration program is not trivial. -/
example : ∃ p, parseProgram demoToks = some p ∧ Fits demoToks p.spans := by
  obtain ⟨p, hp⟩ := demo_parses
  exact ⟨p, hp, C19_spans_fit _ _ hp⟩

mutual
def SpanTree.count : SpanTree → Nat
  | .node _ _ k => 1 + SpanTree.countAll k
def SpanTree.countAll : List SpanTree → Nat
  | [] => 0
  | t :: r => SpanTree.count t + SpanTree.countAll r
end

example : 50 < ((parseProgram demoToks).map fun p => SpanTree.countAll p.spans).getD 0 := by
  decide +kernel

end Verif
