import Verif.Proofs.Written
import Verif.Props.Sources
import Verif.Props.Rename
import Verif.Props.Parser2
/-
C50 without exceptions: nothing in a result is invented.
-/
namespace Verif

theorem componentNames_mem (ts : List Token) (k : CompKind) (t : Token) (h : (k, t) ∈ componentNames ts) : t ∈ ts := by
  fun_induction componentNames ts with
  | case1 u ts ih =>
    rcases List.mem_cons.1 h with e | h
    · simp at e; simp [e.2]
    · simp [ih h]
  | case2 u ts ih =>
    rcases List.mem_cons.1 h with e | h
    · simp at e; simp [e.2]
    · simp [ih h]
  | case3 u ts h1 h2 ih => simp [ih h]
  | case4 => simp at h

theorem contractNames_mem (ts : List Token) (t : Token) (h : t ∈ contractNames ts) : t ∈ ts := by
  fun_induction contractNames ts with
  | case1 ts ih => simp [ih h]
  | case2 ts ih => simp [ih h]
  | case3 u ts h1 h2 ih =>
    rcases List.mem_cons.1 h with rfl | h
    · simp
    · simp [ih h]
  | case4 u ts h1 h2 h3 ih => simp [ih h]
  | case5 => simp at h

/-- C50: every name in a result — of the contract, a parameter, a field, a transition, a user-defined type, the tag or
a field of an address type — is the text of a token of the document.  The one exception is the empty tag. -/
theorem C50_every_name (env : Env) (d : Str) (ts : List STok) (c : Contract)
    (hl : lexDoc env.chars d = some ts) (h : fromStr env d = .ok c) :
    ∀ s ∈ c.names, s = [] ∨ ∃ t ∈ ts, t.tok.text = s := by
  obtain ⟨ts', p, hl', hp, he⟩ := fromStr_ok_iff.mp h
  obtain rfl : ts' = ts := Option.some.inj (hl'.symm.trans hl)
  obtain ⟨toks, h1, ⟨t0, hc1, hc2⟩, hc3, -⟩ := C21_C23_C29_source env d c h
  obtain rfl : toks = ts' := Option.some.inj (h1.symm.trans hl)
  have inBare : ∀ t ∈ bare toks, ∃ u ∈ toks, u.tok.text = t.text := by
    intro t ht
    obtain ⟨u, hu, rfl⟩ := List.mem_map.1 ht
    exact ⟨u, hu, rfl⟩
  have ofName : ∀ s ∈ transitionNames (bare toks), ∃ t ∈ toks, t.tok.text = s := by
    intro s hs
    obtain ⟨⟨k, t⟩, hm, e⟩ := List.mem_filterMap.1 hs
    split at e
    · injection e with e; subst e
      exact inBare _ (componentNames_mem _ _ _ hm)
    · simp at e
  have hall : RV.AllStr (fun s => s = [] ∨ ∃ t ∈ toks, t.tok.text = s) p.rv := by
    intro s hs
    rcases C80_strings .Program toks p ((C44_exact .program rfl toks p).2 (parseProgram_sound hp)) s hs with e | ⟨t, ht, e⟩
    · exact .inl e
    · exact .inr ⟨t, ht, e.symm⟩
  have hnames := emitted_names env.dbg he hall (fun t ht => by
    refine .inr (ofName _ ?_)
    have e := (C29_names env.dbg p c he).2.2.2
    rw [← hc3]
    have e2 := congrArg (List.map Prod.fst) e
    simp only [List.map_map, Function.comp_def] at e2
    rw [e2]
    exact List.mem_map_of_mem (f := fun t : NodeTransitionDefinition => componentName t.name.node) ht)
  intro s hs
  simp only [Contract.names, List.mem_cons, List.mem_append, List.mem_flatMap] at hs
  rcases hs with rfl | (hs | hs) | ⟨t, ht, hs⟩
  · rw [← hc2]
    exact .inr (inBare _ (contractNames_mem _ _ (by rw [hc1]; simp)))
  · exact hnames.1 s hs
  · exact hnames.2.1 s hs
  · rcases hs with rfl | hs
    · refine .inr (ofName _ ?_)
      rw [← hc3]
      exact List.mem_map_of_mem ht
    · exact hnames.2.2 t ht s hs

/-- C50: every name in a result is written in the document, without any exception. -/
theorem C50_in_document (env : Env) (d : Str) (c : Contract) (h : fromStr env d = .ok c) :
    ∀ s ∈ c.names, s <:+: d := by
  intro s hs
  obtain ⟨ts, p, hl, hp, _⟩ := fromStr_ok_iff.mp h
  rcases C50_every_name env d ts c hl h s hs with rfl | ⟨t, ht, rfl⟩
  · exact ⟨[], d, rfl⟩
  · have hu := (parseProgram_sound hp).usable t ht
    obtain ⟨pre, post, e, _⟩ := C05_text_is_slice env.chars d t (by rw [yielded_of_lexDoc hl]; exact ht)
      (by intro e; rw [e] at hu; cases hu)
    exact ⟨pre, post, e.symm⟩

/-- Not vacuous, and the empty name does occur: a document whose result has a user-defined type, address types with the
tags `contract` and none, and the name `Event`. -/
theorem C50_witness : ∃ c : Contract, fromStr demoEnv
    (str! "scilla_version 0 contract Event (a : Foo, b : ByStr20 with end, d : ByStr20 with contract field f : ByStr end)") =
      .ok c ∧ c.names = [str! "Event", str! "a", str! "Foo", str! "b", [], str! "d", str! "contract", str! "f"] :=
  ⟨⟨str! "Event", [⟨str! "a", .other (str! "Foo")⟩, ⟨str! "b", .byStr20With [] []⟩,
    ⟨str! "d", .byStr20With (str! "contract") [⟨str! "f", .byStr⟩]⟩], [], []⟩, by decide +kernel, by decide +kernel⟩

end Verif
