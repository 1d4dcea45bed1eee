import Verif.Model.TreeText
import Verif.Proofs.DebugInj
/-
`{:?}` of syntax trees loses nothing, and the derived comparison is a total order.
-/
namespace Verif

theorem TName.mem_all (t : TName) : t ∈ TName.all := by cases t <;> decide

/-- Within a type no two variants have the same short name, and short names are words; the number of fields is right. -/
theorem variants_ok : ∀ t ∈ TName.all, (t.variants.map fun c => shortName c.path).Nodup ∧
    ∀ c ∈ t.variants, ((∀ x ∈ shortName c.path, x.isAlphanum = true) ∧ shortName c.path ≠ []) ∧
      (c.fields = [] ∨ c.fields.length = c.types.length ∧ c.types ≠ []) := by
  decide +kernel

theorem inj_of_nodup {α β : Type} {f : α → β} : ∀ {l : List α}, (l.map f).Nodup → ∀ {a b : α}, a ∈ l → b ∈ l →
    f a = f b → a = b
  | [], _, a, _, ha, _, _ => by cases ha
  | x :: l, hn, a, b, ha, hb, h => by
    simp only [List.map_cons, List.nodup_cons, List.mem_map, not_exists, not_and] at hn
    rcases List.mem_cons.1 ha with rfl | ha' <;> rcases List.mem_cons.1 hb with rfl | hb'
    · rfl
    · exact absurd h.symm (hn.1 b hb')
    · exact absurd h (hn.1 a ha')
    · exact inj_of_nodup hn.2 ha' hb' h

theorem variant_of_short {t : TName} {c d : Variant} (hc : c ∈ t.variants) (hd : d ∈ t.variants)
    (h : shortName c.path = shortName d.path) : c = d := by
  have hn := (variants_ok t t.mem_all).1
  exact inj_of_nodup hn hc hd h

section
variable {esc : Char → Str} (hesc : RustEscapes esc)
include hesc

/-- what follows the name -/
def RV.payload (esc : Char → Str) : List Str → List RV → Str
  | [], [] => []
  | [], v :: vs => str! "(" ++ (v.debug esc ++ (RV.debugMore esc vs ++ str! ")"))
  | f :: _, [] => str! " { " ++ f
  | f :: fs, v :: vs => str! " { " ++ (f ++ (str! ": " ++ (v.debug esc ++ (RV.debugFieldsMore esc fs vs ++ str! " }"))))

omit hesc in
theorem debug_node (p : Str) (fs : List Str) (vs : List RV) :
    (RV.node p fs vs).debug esc = shortName p ++ RV.payload esc fs vs := by
  cases fs <;> cases vs <;> simp [RV.debug, RV.payload]

omit hesc in
theorem payload_stops (fs : List Str) (vs : List RV) {x : Str} (hx : Stops x) : Stops (RV.payload esc fs vs ++ x) := by
  cases fs <;> cases vs
  · simpa [RV.payload] using hx
  all_goals exact stops_cons rfl

omit hesc in
theorem more_stops (l : List RV) {x : Str} (hx : Stops x) : Stops (RV.debugMore esc l ++ x) := by
  cases l with
  | nil => simpa [RV.debugMore] using hx
  | cons v l => rw [RV.debugMore]; exact stops_cons rfl

omit hesc in
theorem fieldsMore_stops (fs : List Str) (l : List RV) {x : Str} (hx : Stops x) :
    Stops (RV.debugFieldsMore esc fs l ++ x) := by
  cases fs <;> cases l <;> simp only [RV.debugFieldsMore]
  all_goals first | exact hx | exact stops_cons rfl

omit hesc in
theorem debug_not_close {v : RV} {t : RT} (h : HasType v t) (x y : Str) : v.debug esc ++ x ≠ ']' :: y := by
  cases h with
  | string a => simp [RV.debug, debugStr]
  | located s e h => simp [RV.debug, shortName]
  | vec h => cases h <;> simp [RV.debug]
  | none => simp [RV.none, RV.debug, shortName]
  | some h => simp [RV.some, RV.debug, shortName]
  | node hc h =>
    rename_i t c vs
    have h1 := ((variants_ok t t.mem_all).2 c hc).1
    rw [debug_node]
    cases hs : shortName c.path with
    | nil => exact absurd hs h1.2
    | cons a s =>
      have := h1.1 a (by rw [hs]; simp)
      intro e
      simp only [List.cons_append, List.cons.injEq] at e
      rw [e.1] at this
      exact absurd this (by decide)

omit hesc in
theorem close_stops {x : Str} : Stops (str! "]" ++ x) := stops_cons rfl
omit hesc in
theorem paren_stops {x : Str} : Stops (str! ")" ++ x) := stops_cons rfl
omit hesc in
theorem brace_stops {x : Str} : Stops (str! " }" ++ x) := stops_cons rfl

theorem debug_inj {v : RV} {t : RT} (hv : HasType v t) : ∀ {w : RV} {x y : Str}, HasType w t → Stops x → Stops y →
    v.debug esc ++ x = w.debug esc ++ y → v = w ∧ x = y := by
  induction hv using HasType.rec
    (motive_2 := fun l ts _ => (∀ {m : List RV} {x y : Str}, HasTypes m ts → Stops x → Stops y →
        RV.debugMore esc l ++ x = RV.debugMore esc m ++ y → l = m ∧ x = y) ∧
      ∀ (fs : List Str) {m : List RV} {x y : Str}, HasTypes m ts → fs.length = ts.length → Stops x → Stops y →
        RV.debugFieldsMore esc fs l ++ x = RV.debugFieldsMore esc fs m ++ y → l = m ∧ x = y)
    (motive_3 := fun l t _ => ∀ {m : List RV} {x y : Str}, HasTypeAll m t →
      RV.debugMore esc l ++ (str! "]" ++ x) = RV.debugMore esc m ++ (str! "]" ++ y) → l = m ∧ x = y) with
  | string a =>
    intro w x y hw hx hy h
    cases hw with
    | string b =>
      simp only [RV.debug] at h
      obtain ⟨rfl, e⟩ := debugStr_inj hesc h
      exact ⟨rfl, e⟩
  | located s e hv ih =>
    intro w x y hw hx hy h
    cases hw with
    | located s' e' hw =>
      simp only [RV.debug, RV.debugFieldsMore, List.append_assoc] at h
      have h1 := List.append_cancel_left (List.append_cancel_left (List.append_cancel_left (List.append_cancel_left h)))
      obtain ⟨rfl, h2⟩ := ih hw (by exact stops_cons rfl) (by exact stops_cons rfl) h1
      have h3 := List.append_cancel_left (List.append_cancel_left (List.append_cancel_left h2))
      obtain ⟨rfl, h4⟩ := Pos.debug_inj h3
      have h5 := List.append_cancel_left (List.append_cancel_left (List.append_cancel_left h4))
      obtain ⟨rfl, h6⟩ := Pos.debug_inj h5
      exact ⟨rfl, List.append_cancel_left (List.append_cancel_left h6)⟩
  | vec hv ih =>
    intro w x y hw hx hy h
    cases hw with
    | vec hw =>
      rename_i l t m
      cases hv with
      | empty =>
        cases hw with
        | empty => exact ⟨rfl, List.append_cancel_left h⟩
        | more h1 h2 =>
          exfalso
          simp only [RV.debug, List.cons_append, List.nil_append, List.append_assoc, List.cons.injEq, true_and] at h
          exact debug_not_close h1 _ _ h.symm
      | more h1 h2 =>
        cases hw with
        | empty =>
          exfalso
          simp only [RV.debug, List.cons_append, List.nil_append, List.append_assoc, List.cons.injEq, true_and] at h
          exact debug_not_close h1 _ _ h
        | more h1' h2' =>
          simp only [RV.debug, List.append_assoc] at h
          have h := List.append_cancel_left h
          obtain ⟨e, h3⟩ := ih (x := x) (y := y) (.more h1' h2') (by
            simp only [RV.debugMore, List.append_assoc]
            rw [h])
          exact ⟨by rw [e], h3⟩
  | none t =>
    intro w x y hw hx hy h
    generalize hr : RT.option t = u at hw
    cases hw with
    | none => exact ⟨rfl, List.append_cancel_left h⟩
    | some hw => exact absurd h (by simp [RV.none, RV.some, RV.debug, shortName])
    | _ => cases hr
  | some hv ih =>
    intro w x y hw hx hy h
    cases hw with
    | none => exact absurd h (by simp [RV.none, RV.some, RV.debug, shortName])
    | some hw =>
      simp only [RV.some, RV.debug, List.append_assoc, RV.debugMore, List.nil_append] at h
      obtain ⟨rfl, h1⟩ := ih hw (by exact stops_cons rfl) (by exact stops_cons rfl)
        (List.append_cancel_left (List.append_cancel_left h))
      exact ⟨rfl, List.append_cancel_left h1⟩
  | node hc hv ih =>
    rename_i t c vs
    intro w x y hw hx hy h
    generalize hr : RT.named t = u at hw
    cases hw with
    | node hd hw =>
      cases hr
      have h1 := (variants_ok t t.mem_all).2
      rw [debug_node, debug_node, List.append_assoc, List.append_assoc] at h
      obtain ⟨e, h2⟩ := word_inj (h1 _ hc).1.1 (h1 _ hd).1.1 (payload_stops _ _ hx) (payload_stops _ _ hy) h
      obtain rfl := variant_of_short hc hd e
      have h3 := (h1 _ hc).2
      rename_i ws
      suffices vs = ws ∧ x = y from ⟨by rw [this.1], this.2⟩
      generalize c.types = ts at hv hw h3 ih
      generalize c.fields = fs at h2 h3
      cases hv with
      | nil =>
        cases hw
        exact ⟨rfl, List.append_cancel_left h2⟩
      | cons hv hvs =>
        cases hw with
        | cons hw hws =>
          cases fs with
          | nil =>
            simp only [RV.payload, List.append_assoc] at h2
            have h2 := List.append_cancel_left h2
            obtain ⟨e, h5⟩ := ih.1 (.cons hw hws) paren_stops paren_stops (by
              simp only [RV.debugMore, List.append_assoc]
              rw [h2])
            exact ⟨e, List.append_cancel_left h5⟩
          | cons f fs =>
            simp only [RV.payload, List.append_assoc] at h2
            have h2 := List.append_cancel_left h2
            obtain ⟨e, h5⟩ := ih.2 (f :: fs) (.cons hw hws) (by simpa using h3) brace_stops brace_stops (by
              simp only [RV.debugFieldsMore, List.append_assoc]
              rw [h2])
            exact ⟨e, List.append_cancel_left h5⟩
    | _ => cases hr
  | nil =>
    constructor
    · intro m x y hm hx hy h
      cases hm
      exact ⟨rfl, h⟩
    · intro fs m x y hm hf hx hy h
      cases hm
      exact ⟨rfl, List.append_cancel_left h⟩
  | cons hv hl ih1 ih2 =>
    constructor
    · intro m x y hm hx hy h
      cases hm with
      | cons h1 h2 =>
        simp only [RV.debugMore, List.append_assoc] at h
        obtain ⟨rfl, h3⟩ := ih1 h1 (more_stops _ hx) (more_stops _ hy) (List.append_cancel_left h)
        obtain ⟨rfl, h4⟩ := ih2.1 h2 hx hy h3
        exact ⟨rfl, h4⟩
    · intro fs m x y hm hf hx hy h
      cases hm with
      | cons h1 h2 =>
        cases fs with
        | nil => cases hf
        | cons f fs =>
          simp only [RV.debugFieldsMore, List.append_assoc] at h
          obtain ⟨rfl, h3⟩ := ih1 h1 (fieldsMore_stops _ _ hx) (fieldsMore_stops _ _ hy)
            (List.append_cancel_left (List.append_cancel_left (List.append_cancel_left h)))
          obtain ⟨rfl, h4⟩ := ih2.2 fs h2 (by simpa using hf) hx hy h3
          exact ⟨rfl, h4⟩
  | empty t =>
    rename_i m x y hm h
    cases hm with
    | empty => exact ⟨rfl, List.append_cancel_left h⟩
    | more h1 h2 => exact absurd h (by simp [RV.debugMore])
  | more hv hl ih1 ih2 =>
    rename_i m x y hm h
    cases hm with
    | empty => exact absurd h (by simp [RV.debugMore])
    | more h1 h2 =>
      simp only [RV.debugMore, List.append_assoc] at h
      obtain ⟨rfl, h3⟩ := ih1 h1 (more_stops _ close_stops) (more_stops _ close_stops)
        (List.append_cancel_left h)
      obtain ⟨rfl, h4⟩ := ih2 h2 h3
      exact ⟨rfl, h4⟩
end

end Verif
