import Verif.Proofs.DisplayInj
/-
C33: different types are displayed differently.
-/
namespace Verif

/-- C33: on types with legal, non-reserved names (maps and address types included) the displayed text
determines the type, up to `ByStr020`, which is displayed as `ByStr20`. -/
theorem C33_exact (t u : Ty) (ht : t.Writable) (hu : u.Writable) :
    t.display = u.display ↔ t.canon = u.canon := by
  constructor
  · intro h
    exact (display_unique t u [] [] ht hu (.inl rfl) (.inl rfl) (by rw [h])).1
  · intro h
    rw [← display_canon t, h, display_canon u]

/-- C33: without `ByStr020` the displayed text determines the type. -/
theorem C33_injective (t u : Ty) (ht : t.Writable) (hu : u.Writable) (ht' : t.canon = t) (hu' : u.canon = u)
    (h : t.display = u.display) : t = u := by
  rw [← ht', ← hu']
  exact (C33_exact t u ht hu).mp h

/-- The same for the text of all the fields of an address type. -/
theorem C33_fields_exact (fs gs : List Field) (hf : fieldsWritable fs) (hg : fieldsWritable gs) :
    displayFields fs = displayFields gs ↔ fieldsCanon fs = fieldsCanon gs := by
  constructor
  · intro h
    exact (fields_unique fs gs [] [] hf hg (by rw [h])).1
  · intro h
    rw [← displayFields_canon fs, h, displayFields_canon gs]

/-- No displayed type is a proper prefix of another one followed by a closing parenthesis, a comma, or a
blank and something that does not start with `w`: displayed types can be told apart inside a text. -/
theorem C33_prefix_free (t u : Ty) (r : Str) (ht : t.Writable) (hu : u.Writable) (hr : AfterTy r)
    (h : t.display ++ r = u.display) : t.canon = u.canon ∧ r = [] :=
  display_unique t u r [] ht hu hr (.inl rfl) (by rw [h]; simp)

/-- The restriction on names is needed. -/
theorem C33_collisions :
    Ty.display (.byStrX 20) = Ty.display .byStr20 ∧
    Ty.display (.other (str! "Int32")) = Ty.display .int32 ∧
    Ty.display (.option .int32) = Ty.display (.other (str! "(Option Int32)")) ∧
    Ty.display (.byStr20With (str! "contract") [⟨str! "x", .int32⟩]) =
      Ty.display (.byStr20With (str! "contractfield x: Int32") []) := by decide +kernel

/-- Two different types of the kind the theorem speaks about. -/
example : Ty.Writable (.map .byStr20 (.byStr20With (str! "contract") [⟨str! "n", .byStrX 33⟩])) ∧
    Ty.Writable (.map .byStr20 (.byStr20With (str! "contract") [])) := by
  simp only [Ty.Writable, Ty.nameTok, fieldsWritable]
  exact ⟨⟨rfl, trivial, .inl trivial, isName rfl rfl rfl (by decide), by decide, trivial⟩,
    rfl, trivial, .inl trivial, trivial⟩

end Verif
