import Verif.Proofs.Machine
import Verif.Props.Emitter1
/-
C73: machine arithmetic.  `W` is the number of values of `usize` (2^64 on the usual targets).
-/
namespace Verif

/-- a document that is in memory is handled without overflow: debug builds do not panic and compute what the model computes -/
theorem C73_debug (W : Nat) (env : Env) (doc : Str) (h : bytes doc < W) :
    lexDocM (.checked W) env.chars doc = lexDoc env.chars doc ∧
    yieldedM (.checked W) env.chars doc = yielded env.chars doc ∧
    fromStrM (.checked W) env doc = fromStr env doc := by
  have h1 : lexDocM (.checked W) env.chars doc = lexDoc env.chars doc :=
    drainFuelM_eq (Arith.checked_exact W) h _ (LexState.inside_init doc)
  have h2 : yieldedM (.checked W) env.chars doc = yielded env.chars doc :=
    yieldedFuelM_eq (Arith.checked_exact W) h _ (LexState.inside_init doc)
  exact ⟨h1, h2, by unfold fromStrM fromStr; rw [h1, h2]; cases lexDoc env.chars doc <;> rfl⟩

/-- release builds, which wrap around, compute the same -/
theorem C73_release (W : Nat) (env : Env) (doc : Str) (h : bytes doc < W) :
    lexDocM (.wrapping W) env.chars doc = lexDoc env.chars doc ∧
    yieldedM (.wrapping W) env.chars doc = yielded env.chars doc ∧
    fromStrM (.wrapping W) env doc = fromStr env doc := by
  have h1 : lexDocM (.wrapping W) env.chars doc = lexDoc env.chars doc :=
    drainFuelM_eq (Arith.wrapping_exact W) h _ (LexState.inside_init doc)
  have h2 : yieldedM (.wrapping W) env.chars doc = yielded env.chars doc :=
    yieldedFuelM_eq (Arith.wrapping_exact W) h _ (LexState.inside_init doc)
  exact ⟨h1, h2, by unfold fromStrM fromStr; rw [h1, h2]; cases lexDoc env.chars doc <;> rfl⟩

/-- no coordinate of a token exceeds the length of the document; columns and lines never exceed positions -/
theorem C73_bounded (U : CharClass) (doc : Str) (t : STok) (h : t ∈ yielded U doc) :
    t.start.position ≤ t.stop.position ∧ t.stop.position ≤ bytes doc ∧
    t.start.column ≤ t.start.position ∧ t.stop.column ≤ t.stop.position ∧
    t.start.line ≤ t.start.position ∧ t.stop.line = t.start.line := by
  obtain ⟨h1, h2, h3, h4, h5, h6⟩ := yieldedFuel_inside _ (LexState.inside_init doc) h
  exact ⟨h2, h1, h3, h4, h5, h6⟩

/-- every position of a token of a document that is shorter than `isize::MAX` bytes passes `is_valid` -/
theorem C73_valid (W : Nat) (U : CharClass) (doc : Str) (hW : bytes doc < (W - 1) / 2) (t : STok)
    (h : t ∈ yielded U doc) : t.start.isValid W = true ∧ t.stop.isValid W = true := by
  obtain ⟨h1, h2, _⟩ := C73_bounded U doc t h
  simp only [Pos.isValid, decide_eq_true_eq]
  omega

/-- the invalid position is never valid, the start position always (`usize` has at least two bits) -/
theorem C73_sentinels (W : Nat) (hW : 4 ≤ W) :
    (Pos.invalidPosition W).isValid W = false ∧ Pos.startPosition.isValid W = true := by
  constructor
  · have : ¬ W - 1 < (W - 1) / 2 := by omega
    exact decide_eq_false this
  · have : 0 < (W - 1) / 2 := by omega
    exact decide_eq_true this

theorem nextFuelM_overflow (W : Nat) (U : CharClass) : ∀ (j k : Nat) (σ : LexState),
    σ.rest = List.replicate j ' ' ++ [';'] → σ.offset + j + 1 = W → σ.lastPosition ≤ σ.offset →
    σ.character ≤ σ.lastPosition → j < k → nextFuelM (.checked W) U k σ = .panic := by
  intro j
  induction j with
  | zero =>
    intro k σ hr ho hl hc hk
    obtain ⟨k, rfl⟩ : ∃ i, k = i + 1 := ⟨k - 1, by omega⟩
    have hs : lexStepM (.checked W) U σ = .panic := by
      have e : scan U ';' [] = .token .semicolon 1 0 := by
        simp [scan, CharClass.isWhite, isAscii, singleTok]
      unfold lexStepM
      rw [hr]
      simp only [List.replicate, List.nil_append, e, Arith.checked, hl, if_true, Option.bind_some]
      rw [if_pos (show σ.character + (σ.offset - σ.lastPosition) < W by omega)]
      simp only
      rw [if_neg (show ¬ σ.offset + 1 < W by omega)]
    simp only [nextFuelM, hs]
  | succ j ih =>
    intro k σ hr ho hl hc hk
    obtain ⟨k, rfl⟩ : ∃ i, k = i + 1 := ⟨k - 1, by omega⟩
    have hs : lexStepM (.checked W) U σ = .skip ⟨List.replicate j ' ' ++ [';'], σ.offset + 1, σ.line,
        σ.character + (σ.offset - σ.lastPosition), σ.offset⟩ := by
      have e : ∀ r, scan U ' ' r = .white := by
        intro r; simp [scan, CharClass.isWhite, isAscii]
      unfold lexStepM
      rw [hr]
      simp only [List.replicate, List.cons_append, e, Arith.checked, hl, if_true, Option.bind_some]
      rw [if_pos (show σ.character + (σ.offset - σ.lastPosition) < W by omega)]
      rfl
    simp only [nextFuelM, hs]
    exact ih k _ rfl (by simp only; omega) (by simp only; omega) (by simp only; omega) (by omega)

/-- the bound is sharp: for every word size there is a document of exactly `W` bytes on which a debug build panics -/
theorem C73_sharp (W : Nat) (hW : 0 < W) (U : CharClass) :
    ∃ doc, bytes doc = W ∧ lexDocM (.checked W) U doc = none ∧ (lexDoc U doc).isSome = true := by
  refine ⟨List.replicate (W - 1) ' ' ++ [';'], ?_, ?_, ?_⟩
  · rw [bytes_append, bytes_ascii (s := List.replicate (W - 1) ' ')]
    · simp [show Char.utf8Size ';' = 1 by decide]
      omega
    · intro c hc
      rw [(List.mem_replicate.1 hc).2]
      rfl
  · have := nextFuelM_overflow W U (W - 1) ((LexState.init (List.replicate (W - 1) ' ' ++ [';'])).rest.length + 1)
      (LexState.init (List.replicate (W - 1) ' ' ++ [';'])) rfl (by simp only [LexState.init]; omega) (by simp [LexState.init])
      (by simp [LexState.init]) (by simp [LexState.init]; omega)
    simp only [lexDocM, drainFuelM, lexNextM, this]
  · suffices h : ∃ ts, lexDoc U (List.replicate (W - 1) ' ' ++ [';']) = some ts by
      obtain ⟨ts, h⟩ := h; rw [h]; rfl
    refine C02_ascii_no_panic U _ fun c hc => ?_
    rcases List.mem_append.1 hc with hc | hc
    · rw [(List.mem_replicate.1 hc).2]; decide
    · rw [List.mem_singleton.1 hc]; decide

/-- the demonstration contract, on 64 bits and on 16 bits -/
theorem C73_witness : bytes demoDoc < 2 ^ 16 ∧ (lexDocM (.checked (2 ^ 16)) demoU demoDoc).isSome = true ∧
    lexDocM (.checked 16) demoU demoDoc = none := by decide +kernel

/-- a wrapping machine that is too small does not panic here but reports wrong positions -/
theorem C73_witness_wrap :
    (lexDocM (.wrapping 4) demoU (str! "    x")).map (·.map fun t => (t.start.position, t.stop.position)) = some [(4, 1)] := by
  decide +kernel

end Verif
