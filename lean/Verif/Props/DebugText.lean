import Verif.Proofs.DebugInj
import Verif.Props.ErrorText
import Verif.Props.DisplayInj
/-
C54: the `{:?}` renderings lose nothing.  `RustEscapes esc`: characters outside ASCII are shown as they are or by their
number, as Rust does.
-/
namespace Verif
section
variable {esc : Char → Str} (hesc : RustEscapes esc)
include hesc

/-- C54: two types with the same `{:?}` are the same … -/
theorem C54_type (t u : Ty) (h : t.debug esc = u.debug esc) : t = u :=
  (Ty.debug_inj hesc t u [] [] (by intro c h; cases h) (by intro c h; cases h) (by simpa using h)).1

/-- … and so are two contracts. -/
theorem C54_contract (c d : Contract) (h : c.debug esc = d.debug esc) : c = d := Contract.debug_inj hesc h

/-- C54: the results of two documents have the same `{:?}` only if they are the same. -/
theorem C54_result (env : Env) (doc doc' : Str) (c c' : Contract) (h : fromStr env doc = .ok c)
    (h' : fromStr env doc' = .ok c') (hd : c.debug esc = c'.debug esc) : fromStr env doc = fromStr env doc' := by
  rw [h, h', C54_contract hesc _ _ hd]

/-- C54: also the error texts: if the texts of two syntax errors are the same, the offending tokens are the same, and
at the same place. -/
theorem C54_error (chars : CharClass) (expected : List Token → List Str) (doc doc' msg : Str)
    (pre post pre' post' : List STok) (t t' : STok)
    (h1 : yielded chars doc = pre ++ t :: post) (h2 : CanContinue pre) (h3 : ¬ CanContinue (pre ++ [t]))
    (h1' : yielded chars doc' = pre' ++ t' :: post') (h2' : CanContinue pre') (h3' : ¬ CanContinue (pre' ++ [t']))
    (h : fromStr (Env.real chars esc expected) doc = .err (.parseError msg))
    (h' : fromStr (Env.real chars esc expected) doc' = .err (.parseError msg)) : t = t' := by
  rw [C53_token chars esc expected doc pre post t h1 h2 h3] at h
  rw [C53_token chars esc expected doc' pre' post' t' h1' h2' h3'] at h'
  simp only [ParseResult.err.injEq, Error.parseError.injEq] at h h'
  rw [← h'] at h
  replace h := Pos.debug_inj (List.append_cancel_left h)
  obtain ⟨e1, h⟩ := h
  replace h := Token.debug_inj hesc (by exact stops_cons rfl) (by exact stops_cons rfl) (List.append_cancel_left h)
  obtain ⟨e2, h⟩ := h
  replace h := Pos.debug_inj (List.append_cancel_left h)
  obtain ⟨e3, h⟩ := h
  cases t; cases t'
  simp only at e1 e2 e3
  rw [e1, e2, e3]

end

/-- The hypothesis on the escapes is met, e.g. by showing every character as it is; `Display` is not injective
(C32), `{:?}` tells the two apart. -/
theorem C54_witness : RustEscapes (fun c => [c]) ∧
    Ty.display (.byStrX 20) = Ty.display .byStr20 ∧
    Ty.debug (fun c => [c]) (.byStrX 20) = str! "ByStrX(20)" ∧ Ty.debug (fun c => [c]) .byStr20 = str! "ByStr20" ∧
    Ty.debug (fun c => [c]) (.map .byStr20 (.option (.other (str! "a\"\n")))) =
      str! "Map(ByStr20, Option(Other(\"a\\\"\\n\")))" ∧
    Contract.debug (fun c => [c]) ⟨str! "C", [⟨str! "x", .uint32⟩, ⟨str! "y", .byStr20With (str! "contract") []⟩], [],
      [⟨str! "T", []⟩]⟩ =
      str! "Contract { name: \"C\", init_params: FieldList([Field { name: \"x\", type: Uint32 }, Field { name: \"y\", type: ByStr20With { type_name: \"contract\", fields: FieldList([]) } }]), fields: FieldList([]), transitions: TransitionList([Transition { name: \"T\", params: FieldList([]) }]) }" := by
  refine ⟨fun c _ => .inl rfl, ?_⟩
  decide +kernel

end Verif
