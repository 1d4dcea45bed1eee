import Verif.Model.Helpers
import Verif.Proofs.DebugInj
import Verif.Props.Emitter1
/-
C75: results built by hand, and the text of `ParserError`.
-/
namespace Verif

/-- a list of fields built with `default` and `push` -/
def buildFields (l : List Field) : List Field := l.foldl FieldList.push FieldList.default

/-- a contract built by hand from the parts of another one: its fields through `Field::new` and `FieldList::push`, its
transitions through `Transition::new` (`new_without_param` where there are no parameters) -/
def Contract.rebuild (c : Contract) : Contract where
  name := c.name
  initParams := buildFields (c.initParams.map fun f => match f with | .mk n t => Field.new n t)
  fields := buildFields (c.fields.map fun f => match f with | .mk n t => Field.new n t)
  transitions := (c.transitions.map fun t => match t.params with
    | [] => Transition.newWithoutParam t.name
    | ps => Transition.new t.name (buildFields ps)).foldl TransitionList.push TransitionList.default

theorem buildFields_eq (l : List Field) : buildFields l = l := by
  have : ∀ (l acc : List Field), l.foldl FieldList.push acc = acc ++ l := by
    intro l
    induction l with
    | nil => intro acc; simp
    | cons f l ih => intro acc; rw [List.foldl_cons, ih]; simp [FieldList.push]
  exact this l []

/-- Every contract, in particular every one that `from_str` returns, equals the one built by hand from its parts. -/
theorem C75_rebuild (c : Contract) : c.rebuild = c := by
  have h1 : ∀ l : List Field, (l.map fun f => match f with | .mk n t => Field.new n t) = l := by
    intro l
    induction l with
    | nil => rfl
    | cons f l ih => cases f; rw [List.map_cons, ih]; rfl
  have h2 : ∀ (l acc : List Transition), l.foldl TransitionList.push acc = acc ++ l := by
    intro l
    induction l with
    | nil => intro acc; simp
    | cons f l ih => intro acc; rw [List.foldl_cons, ih]; simp [TransitionList.push]
  have h3 : ∀ l : List Transition, (l.map fun t => match t.params with
      | [] => Transition.newWithoutParam t.name
      | ps => Transition.new t.name (buildFields ps)) = l := by
    intro l
    induction l with
    | nil => rfl
    | cons t l ih =>
      obtain ⟨n, ps⟩ := t
      rw [List.map_cons, ih]
      cases ps with
      | nil => rfl
      | cons p ps => simp only [buildFields_eq]; rfl
  obtain ⟨n, a, b, t⟩ := c
  simp only [Contract.rebuild]
  rw [h1, h1, h3, h2, buildFields_eq, buildFields_eq]
  rfl

/-- `push` adds at the end: nothing that is in the list moves, and the length grows by one. -/
theorem C75_push (l : List Field) (f : Field) (i : Nat) :
    (FieldList.push l f).length = l.length + 1 ∧ (FieldList.push l f)[l.length]? = some f ∧
    (i < l.length → (FieldList.push l f)[i]? = l[i]?) := by
  refine ⟨by simp [FieldList.push], by simp [FieldList.push], fun h => ?_⟩
  simp [FieldList.push, List.getElem?_append_left h]

theorem last_space {x x' d d' : Str} (h : x ++ ' ' :: d = x' ++ ' ' :: d') (hd : ' ' ∉ d) (hd' : ' ' ∉ d') :
    x = x' ∧ d = d' := by
  rcases List.append_eq_append_iff.1 h with ⟨a, h1, h2⟩ | ⟨a, h1, h2⟩
  · cases a with
    | nil => simp at h1 h2; exact ⟨h1.symm, h2⟩
    | cons c a =>
      rw [List.cons_append] at h2
      injection h2 with _ h3
      exact absurd (by rw [h3]; simp) hd
  · cases a with
    | nil => simp at h1 h2; exact ⟨h1, h2.symm⟩
    | cons c a =>
      rw [List.cons_append] at h2
      injection h2 with _ h3
      exact absurd (by rw [h3]; simp) hd'

theorem natDigits_no_space (n : Nat) : ' ' ∉ natDigits n := by
  intro h
  exact absurd (natDigits_alnum n ' ' h) (by decide)

theorem natDigits_eq {m n : Nat} (h : natDigits m = natDigits n) : m = n := by
  have := natDigits_inj (m := m) (n := n) (x := []) (y := []) (by simp [Stops]) (by simp [Stops]) (by simpa using h)
  exact this.1

/-- The text of a `ParserError` determines it, whatever the message contains. -/
theorem C75_parser_error (e e' : ParserError) (h : e.display = e'.display) : e = e' := by
  obtain ⟨m, l, c⟩ := e
  obtain ⟨m', l', c'⟩ := e'
  have h0 : ∀ (m : Str) (l c : Nat), (ParserError.mk m l c).display =
      (m ++ str! " (line" ++ ' ' :: (natDigits l ++ str! ",") ++ str! " column") ++ ' ' :: (natDigits c ++ str! ")") := by
    intro m l c
    simp [ParserError.display]
  rw [h0, h0] at h
  have hp : ∀ (n : Nat) (c : Char), c ≠ ' ' → ' ' ∉ natDigits n ++ [c] := by
    intro n c hc hm
    rcases List.mem_append.1 hm with hm | hm
    · exact natDigits_no_space n hm
    · exact hc (List.mem_singleton.1 hm).symm
  obtain ⟨h1, h2⟩ := last_space h (hp _ _ (by decide)) (hp _ _ (by decide))
  have hc := natDigits_eq (List.append_cancel_right h2)
  have h3 := List.append_cancel_right h1
  obtain ⟨h4, h5⟩ := last_space h3 (hp _ _ (by decide)) (hp _ _ (by decide))
  have hl := natDigits_eq (List.append_cancel_right h5)
  have hm := List.append_cancel_right h4
  rw [hc, hl, hm]

/-- a message that looks like a position is no problem -/
theorem C75_witness : (ParserError.mk (str! "x (line 1, column 2)") 3 45).display =
      str! "x (line 1, column 2) (line 3, column 45)" ∧
    (Contract.rebuild ⟨str! "C", [.mk (str! "p") .uint32], [], [⟨str! "T", []⟩, ⟨str! "U", [.mk (str! "q") .byStr20]⟩]⟩).transitions
      = [Transition.newWithoutParam (str! "T"), ⟨str! "U", [Field.new (str! "q") .byStr20]⟩] := by
  constructor <;> rfl

end Verif
