import Verif.Spec.Parts
import Verif.Props.GrammarFile
import Verif.Props.Emitter1
import Verif.Proofs.StripEmit
import Verif.Proofs.PrintDerives
/-
Outlines of programs: existence, uniqueness, and what emission depends on (C81).
-/
namespace Verif

/-- field parts, their tokens with positions, and their trees -/
inductive FieldsAt : List FieldPart → List STok → List (W NodeContractField) → Prop
  | nil : FieldsAt [] [] []
  | cons {w1 w2 w : List STok} {t : W NodeTypedIdentifier} {x : W NodeFullExpression} {s e s' e' a b : Pos}
      {fs : List FieldPart} {vs : List (W NodeContractField)} :
      Derives .typedId w1 t → Derives .fullExpr w2 x → FieldsAt fs w vs →
      FieldsAt (⟨bare w1, bare w2⟩ :: fs) (⟨s, .field, e⟩ :: (w1 ++ ⟨s', .equals, e'⟩ :: (w2 ++ w))) (⟨⟨t, x⟩, a, b⟩ :: vs)

/-- the same for the components -/
inductive CompsAt : List ComponentPart → List STok → List (W NodeComponentDefinition) → Prop
  | nil : CompsAt [] [] []
  | trans {w1 w2 w3 w : List STok} {n : W NodeComponentId} {ps : W NodeComponentParameters} {y : W NodeComponentBody}
      {s e a b a' b' : Pos} {cs : List ComponentPart} {vs : List (W NodeComponentDefinition)} :
      Derives .componentId w1 n → Derives .compParams w2 ps → Derives .compBody w3 y →
      CompsAt cs w vs →
      CompsAt (⟨true, bare w1, bare w2, bare w3⟩ :: cs) (⟨s, .transition, e⟩ :: (w1 ++ (w2 ++ (w3 ++ w))))
        (⟨.transitionComponent ⟨⟨n, ps, y⟩, a, b⟩, a', b'⟩ :: vs)
  | proc {w1 w2 w3 w : List STok} {n : W NodeComponentId} {ps : W NodeComponentParameters} {y : W NodeComponentBody}
      {s e a b a' b' : Pos} {cs : List ComponentPart} {vs : List (W NodeComponentDefinition)} :
      Derives .componentId w1 n → Derives .compParams w2 ps → Derives .compBody w3 y →
      CompsAt cs w vs →
      CompsAt (⟨false, bare w1, bare w2, bare w3⟩ :: cs) (⟨s, .procedure, e⟩ :: (w1 ++ (w2 ++ (w3 ++ w))))
        (⟨.procedureComponent ⟨⟨n, ps, y⟩, a, b⟩, a', b'⟩ :: vs)

/-- the whole program -/
inductive OutlineAt : Outline → List STok → NodeProgram → Prop
  | mk {w1 w2 w3 w4 w5 w6 w7 w8 : List STok} {s e s' e' : Pos} {ver : W Str}
      {imps : Option (W NodeImportDeclarations)} {lib : Option (W NodeLibraryDefinition)}
      {n : W NodeTypeNameIdentifier} {ps : W NodeComponentParameters} {con : Option (W NodeWithConstraint)}
      {fs : List (W NodeContractField)} {cs : List (W NodeComponentDefinition)} {a b : Pos}
      {F : List FieldPart} {C : List ComponentPart} :
      Derives .signedInt w1 ver → Derives (.opt .importDecls) w2 imps → Derives (.opt .libraryDef) w3 lib →
      Derives .typeName w4 n → Derives .compParams w5 ps → Derives (.opt .withConstraint) w6 con →
      FieldsAt F w7 fs → CompsAt C w8 cs →
      OutlineAt ⟨bare w1, bare w2, bare w3, bare w4, bare w5, bare w6, F, C⟩
        (⟨s, .scillaVersion, e⟩ :: (w1 ++ (w2 ++ (w3 ++ ⟨s', .contract, e'⟩ :: (w4 ++ (w5 ++ (w6 ++ (w7 ++ w8))))))))
        ⟨ver, imps, lib, ⟨⟨n, ps, con, fs, cs⟩, a, b⟩⟩

/-! ### From a derivation to the outline -/

theorem Derives.fieldsAt : ∀ {vs : List (W NodeContractField)} {w : List STok},
    Derives (.star .contractField) w vs → ∃ F, FieldsAt F w vs
  | [], _, d => by cases d; exact ⟨_, .nil⟩
  | _ :: _, _, d => by
    cases d with
    | starCons d1 d2 =>
      obtain ⟨F, hF⟩ := Derives.fieldsAt d2
      cases d1 with
      | contractField h d1 d2 =>
        subst h
        refine Exists.intro ?w ?h; rotate_left
        simp only [List.cons_append, List.append_assoc]
        exact .cons d1 d2 hF

theorem Derives.compsAt : ∀ {vs : List (W NodeComponentDefinition)} {w : List STok},
    Derives (.star .compDef) w vs → ∃ C, CompsAt C w vs
  | [], _, d => by cases d; exact ⟨_, .nil⟩
  | _ :: _, _, d => by
    cases d with
    | starCons d1 d2 =>
      obtain ⟨F, hF⟩ := Derives.compsAt d2
      cases d1 with
      | compTransition d1 =>
        cases d1 with
        | transDef h d1 d2 d3 =>
          subst h
          refine Exists.intro ?w ?h; rotate_left
          simp only [List.cons_append, List.append_assoc]
          exact .trans d1 d2 d3 hF
      | compProcedure d1 =>
        cases d1 with
        | procDef h d1 d2 d3 =>
          subst h
          refine Exists.intro ?w2 ?h2; rotate_left
          simp only [List.cons_append, List.append_assoc]
          exact .proc d1 d2 d3 hF

theorem Derives.outlineAt {p : NodeProgram} {w : List STok} (d : Derives .program w p) :
    ∃ o, OutlineAt o w p := by
  cases d with
  | program h d1 d2 d3 d4 =>
    cases d4 with
    | contractDef h' e1 e2 e3 e4 e5 =>
      subst h h'
      obtain ⟨F, hF⟩ := e4.fieldsAt
      obtain ⟨C, hC⟩ := e5.compsAt
      exact ⟨_, .mk d1 d2 d3 e1 e2 e3 hF hC⟩

/-! ### Every part of an outline is a phrase -/

theorem Derives.genBare {x : GName} {w : List STok} {v : Val x.nt} (d : Derives x.nt w v) :
    Gen [.non x] (bare w) := (C59_specification x w).1 ⟨v, d⟩

theorem FieldsAt.ok {F : List FieldPart} {w : List STok} {vs : List (W NodeContractField)} (h : FieldsAt F w vs) :
    (∀ f ∈ F, f.Ok) ∧ bare w = F.flatMap FieldPart.tokens := by
  induction h with
  | nil => exact ⟨by simp, rfl⟩
  | cons d1 d2 _ ih =>
    refine ⟨?_, ?_⟩
    · intro f hf
      rcases List.mem_cons.1 hf with rfl | hf
      · exact ⟨Derives.genBare (x := .TypedIdentifier) d1, Derives.genBare (x := .FullExpression) d2⟩
      · exact ih.1 f hf
    · simp only [List.flatMap_cons, FieldPart.tokens, ← ih.2]
      simp [bare]

theorem CompsAt.ok {C : List ComponentPart} {w : List STok} {vs : List (W NodeComponentDefinition)}
    (h : CompsAt C w vs) : (∀ c ∈ C, c.Ok) ∧ bare w = C.flatMap ComponentPart.tokens := by
  induction h with
  | nil => exact ⟨by simp, rfl⟩
  | trans d1 d2 d3 _ ih =>
    refine ⟨?_, ?_⟩
    · intro f hf
      rcases List.mem_cons.1 hf with rfl | hf
      · exact ⟨Derives.genBare (x := .ComponentId) d1, Derives.genBare (x := .ComponentParameters) d2,
          Derives.genBare (x := .ComponentBody) d3⟩
      · exact ih.1 f hf
    · simp only [List.flatMap_cons, ComponentPart.tokens, ← ih.2]
      simp [bare]
  | proc d1 d2 d3 _ ih =>
    refine ⟨?_, ?_⟩
    · intro f hf
      rcases List.mem_cons.1 hf with rfl | hf
      · exact ⟨Derives.genBare (x := .ComponentId) d1, Derives.genBare (x := .ComponentParameters) d2,
          Derives.genBare (x := .ComponentBody) d3⟩
      · exact ih.1 f hf
    · simp only [List.flatMap_cons, ComponentPart.tokens, ← ih.2]
      simp [bare]

theorem opt_gen {x : GName} {w : List STok} {v : Option (Val x.nt)} (d : Derives (.opt x.nt) w v) :
    bare w = [] ∨ Gen [.non x] (bare w) := by
  cases d with
  | optNone => exact .inl rfl
  | optSome d => exact .inr d.genBare

theorem OutlineAt.ok {o : Outline} {w : List STok} {p : NodeProgram} (h : OutlineAt o w p) :
    o.Ok ∧ bare w = o.tokens := by
  cases h with
  | mk d1 d2 d3 d4 d5 d6 hF hC =>
    refine ⟨⟨Derives.genBare (x := .SignedInteger) d1, opt_gen (x := .ImportDeclarations) d2,
      opt_gen (x := .LibraryDefinition) d3, Derives.genBare (x := .TypeNameIdentifier) d4,
      Derives.genBare (x := .ComponentParameters) d5, opt_gen (x := .WithConstraint) d6, hF.ok.1, hC.ok.1⟩, ?_⟩
    simp only [Outline.tokens, ← hF.ok.2, ← hC.ok.2]
    simp [bare]

/-! ### From an outline to a derivation -/

theorem bare_split {w : List STok} {a b : List Token} (h : bare w = a ++ b) :
    ∃ u v, w = u ++ v ∧ bare u = a ∧ bare v = b := by
  obtain ⟨u, v, h1, h2, h3⟩ := List.map_eq_append_iff.1 h
  exact ⟨u, v, h1, h2, h3⟩

theorem bare_cut {w : List STok} {t : Token} {b : List Token} (h : bare w = t :: b) :
    ∃ k v, w = k :: v ∧ k.tok = t ∧ bare v = b := by
  obtain ⟨k, v, h1, h2, h3⟩ := List.map_eq_cons_iff.1 h
  exact ⟨k, v, h1, h2, h3⟩

theorem gen_derives {x : GName} {w : List STok} {a : List Token} (h : bare w = a) (g : Gen [.non x] a) :
    ∃ v, Derives x.nt w v := (C59_specification x w).2 (by subst h; exact g)

theorem gen_opt {x : GName} {w : List STok} {a : List Token} (h : bare w = a) (g : a = [] ∨ Gen [.non x] a) :
    ∃ v, Derives (.opt x.nt) w v := by
  rcases g with g | g
  · rw [g] at h
    obtain rfl : w = [] := by cases w; rfl; simp [bare] at h
    exact ⟨_, .optNone⟩
  · obtain ⟨v, d⟩ := gen_derives h g
    exact ⟨_, .optSome d⟩

theorem fieldsAt_of : ∀ (F : List FieldPart) (w : List STok), (∀ f ∈ F, f.Ok) →
    bare w = F.flatMap FieldPart.tokens → ∃ vs, FieldsAt F w vs ∧ Derives (.star .contractField) w vs
  | [], w, _, h => by
    obtain rfl : w = [] := by cases w; rfl; simp [bare] at h
    exact ⟨_, .nil, .starNil⟩
  | ⟨a, b⟩ :: F, w, hok, h => by
    simp only [List.flatMap_cons, FieldPart.tokens, List.cons_append, List.append_assoc] at h
    obtain ⟨k, w, rfl, hk, h⟩ := bare_cut h
    obtain ⟨w1, w, rfl, h1, h⟩ := bare_split h
    obtain ⟨q, w, rfl, hq, h⟩ := bare_cut h
    obtain ⟨w2, w, rfl, h2, h⟩ := bare_split h
    obtain ⟨vs, hF, dF⟩ := fieldsAt_of F w (fun f hf => hok f (List.mem_cons_of_mem _ hf)) h
    have := hok _ List.mem_cons_self
    obtain ⟨t, d1⟩ := gen_derives h1 this.declared
    obtain ⟨x, d2⟩ := gen_derives h2 this.initial
    subst h1 h2
    obtain ⟨s, _, e⟩ := k
    obtain ⟨s', _, e'⟩ := q
    cases hk
    cases hq
    have := Derives.starCons (Derives.contractField (s1 := s) (e1 := e) (s2 := s') (e2 := e') rfl d1 d2) dF
    simp only [List.cons_append, List.append_assoc] at this
    exact ⟨_, .cons d1 d2 hF, this⟩

theorem compsAt_of : ∀ (C : List ComponentPart) (w : List STok), (∀ c ∈ C, c.Ok) →
    bare w = C.flatMap ComponentPart.tokens → ∃ vs, CompsAt C w vs ∧ Derives (.star .compDef) w vs
  | [], w, _, h => by
    obtain rfl : w = [] := by cases w; rfl; simp [bare] at h
    exact ⟨_, .nil, .starNil⟩
  | ⟨i, a, b, c⟩ :: C, w, hok, h => by
    simp only [List.flatMap_cons, ComponentPart.tokens, List.cons_append, List.append_assoc] at h
    obtain ⟨k, w, rfl, hk, h⟩ := bare_cut h
    obtain ⟨w1, w, rfl, h1, h⟩ := bare_split h
    obtain ⟨w2, w, rfl, h2, h⟩ := bare_split h
    obtain ⟨w3, w, rfl, h3, h⟩ := bare_split h
    obtain ⟨vs, hF, dF⟩ := compsAt_of C w (fun f hf => hok f (List.mem_cons_of_mem _ hf)) h
    have := hok _ List.mem_cons_self
    obtain ⟨n, d1⟩ := gen_derives h1 this.name
    obtain ⟨ps, d2⟩ := gen_derives h2 this.params
    obtain ⟨y, d3⟩ := gen_derives h3 this.body
    subst h1 h2 h3
    obtain ⟨s, _, e⟩ := k
    cases i
    · cases hk
      have := Derives.starCons (Derives.compProcedure (Derives.procDef (s1 := s) (e1 := e) rfl d1 d2 d3)) dF
      simp only [List.cons_append, List.append_assoc] at this
      exact ⟨_, .proc d1 d2 d3 hF, this⟩
    · cases hk
      have := Derives.starCons (Derives.compTransition (Derives.transDef (s1 := s) (e1 := e) rfl d1 d2 d3)) dF
      simp only [List.cons_append, List.append_assoc] at this
      exact ⟨_, .trans d1 d2 d3 hF, this⟩

theorem outlineAt_of (o : Outline) (w : List STok) (hok : o.Ok) (h : bare w = o.tokens) :
    ∃ p, OutlineAt o w p ∧ Derives .program w p := by
  obtain ⟨a1, a2, a3, a4, a5, a6, F, C⟩ := o
  obtain ⟨g1, g2, g3, g4, g5, g6, g7, g8⟩ := hok
  simp only [Outline.tokens] at h
  obtain ⟨k0, w, rfl, hk0, h⟩ := bare_cut h
  obtain ⟨w1, w, rfl, h1, h⟩ := bare_split h
  obtain ⟨w2, w, rfl, h2, h⟩ := bare_split h
  obtain ⟨w3, w, rfl, h3, h⟩ := bare_split h
  obtain ⟨k1, w, rfl, hk1, h⟩ := bare_cut h
  obtain ⟨w4, w, rfl, h4, h⟩ := bare_split h
  obtain ⟨w5, w, rfl, h5, h⟩ := bare_split h
  obtain ⟨w6, w, rfl, h6, h⟩ := bare_split h
  obtain ⟨w7, w8, rfl, h7, h8⟩ := bare_split h
  obtain ⟨v1, d1⟩ := gen_derives h1 g1
  obtain ⟨v2, d2⟩ := gen_opt h2 g2
  obtain ⟨v3, d3⟩ := gen_opt h3 g3
  obtain ⟨v4, d4⟩ := gen_derives h4 g4
  obtain ⟨v5, d5⟩ := gen_derives h5 g5
  obtain ⟨v6, d6⟩ := gen_opt h6 g6
  obtain ⟨v7, hF, d7⟩ := fieldsAt_of F w7 g7 h7
  obtain ⟨v8, hC, d8⟩ := compsAt_of C w8 g8 h8
  subst h1 h2 h3 h4 h5 h6
  obtain ⟨s, _, e⟩ := k0
  obtain ⟨s', _, e'⟩ := k1
  cases hk0
  cases hk1
  exact ⟨_, .mk d1 d2 d3 d4 d5 d6 hF hC, .program rfl d1 d2 d3 (.contractDef rfl d4 d5 d6 d7 d8)⟩

/-! ### An outline is determined by the tokens -/

theorem stopFrom_mem_map (p : Pos) : ∀ {w : List STok}, w ≠ [] → stopFrom p w ∈ w.map (·.stop)
  | [t], _ => by simp [stopFrom]
  | t :: u :: w, _ => by
    have := stopFrom_mem_map t.stop (w := u :: w) (by simp)
    rw [List.map_cons]
    exact List.mem_cons_of_mem _ this

/-- two cuts of the same tokens at the same end -/
theorem same_cut : ∀ {a c b d : List STok} (p : Pos), ((a ++ b).map (·.stop)).Nodup → p ∉ (a ++ b).map (·.stop) →
    a ++ b = c ++ d → stopFrom p a = stopFrom p c → a = c ∧ b = d
  | [], [], _, _, _, _, _, h, _ => ⟨rfl, h⟩
  | [], t :: c, b, d, p, _, hp, h, hs => by
    have := stopFrom_mem_map p (w := t :: c) (by simp)
    rw [← hs] at this
    refine absurd ?_ hp
    rw [h, List.map_append]
    exact List.mem_append_left _ this
  | t :: a, [], b, d, p, _, hp, h, hs => by
    have := stopFrom_mem_map p (w := t :: a) (by simp)
    rw [hs] at this
    refine absurd ?_ hp
    rw [List.map_append]
    exact List.mem_append_left _ this
  | t :: a, u :: c, b, d, p, hn, hp, h, hs => by
    simp only [List.cons_append, List.cons.injEq] at h
    obtain ⟨rfl, h⟩ := h
    simp only [List.cons_append, List.map_cons, List.nodup_cons] at hn
    obtain ⟨h1, h2⟩ := same_cut t.stop hn.2 hn.1 h hs
    exact ⟨by rw [h1], h2⟩

theorem same_stop {a c b d : List STok} (hn : ((a ++ b).map (·.stop)).Nodup) (ha : a ≠ []) (hc : c ≠ [])
    (h : a ++ b = c ++ d) (hs : stopOf a = stopOf c) : a = c ∧ b = d := by
  cases a with
  | nil => exact absurd rfl ha
  | cons t a =>
    cases c with
    | nil => exact absurd rfl hc
    | cons u c =>
      simp only [List.cons_append, List.cons.injEq] at h
      obtain ⟨rfl, h⟩ := h
      simp only [List.cons_append, List.map_cons, List.nodup_cons] at hn
      obtain ⟨h1, h2⟩ := same_cut t.stop hn.2 hn.1 h hs
      exact ⟨by rw [h1], h2⟩

/-- the kinds of parts, all of which record where they end -/
def NT.part : NT → Bool
  | .signedInt | .importDecls | .libraryDef | .typeName | .compParams | .withConstraint | .typedId | .fullExpr
  | .componentId | .compBody => true
  | _ => false

def stopOfVal : (n : NT) → Val n → Pos
  | .signedInt, v => W.stop v
  | .importDecls, v => W.stop v
  | .libraryDef, v => W.stop v
  | .typeName, v => W.stop v
  | .compParams, v => W.stop v
  | .withConstraint, v => W.stop v
  | .typedId, v => W.stop v
  | .fullExpr, v => W.stop v
  | .componentId, v => W.stop v
  | .compBody, v => W.stop v
  | _, _ => default

theorem Derives.part_stop {n : NT} {w : List STok} {v : Val n} (d : Derives n w v) (hn : n.part = true) :
    stopOfVal n v = stopOf w := by
  cases d <;> first | rfl | (simp [NT.part] at hn; done)

theorem part_cut {n : NT} {a c b d : List STok} {v : Val n} (hn : n.part = true) (da : Derives n a v)
    (dc : Derives n c v) (hs : ((a ++ b).map (·.stop)).Nodup) (h : a ++ b = c ++ d) : a = c ∧ b = d := by
  have hx : nullable n = false := by cases n <;> first | rfl | (simp [NT.part] at hn; done)
  exact same_stop hs (da.ne_nil hx) (dc.ne_nil hx) h ((da.part_stop hn).symm.trans (dc.part_stop hn))

theorem opt_cut {n : NT} {a c b d : List STok} {v : Option (Val n)} (hn : n.part = true) (da : Derives (.opt n) a v)
    (dc : Derives (.opt n) c v) (hs : ((a ++ b).map (·.stop)).Nodup) (h : a ++ b = c ++ d) : a = c ∧ b = d := by
  cases da with
  | optNone => cases dc; exact ⟨rfl, h⟩
  | optSome da => cases dc with | optSome dc => exact part_cut hn da dc hs h

theorem nodup_tail {a b : List STok} (h : ((a ++ b).map (·.stop)).Nodup) : (b.map (·.stop)).Nodup := by
  rw [List.map_append] at h
  exact (List.nodup_append.1 h).2.1

theorem nodup_rest {k : STok} {b : List STok} (h : ((k :: b).map (·.stop)).Nodup) : (b.map (·.stop)).Nodup := by
  rw [List.map_cons] at h
  exact (List.nodup_cons.1 h).2

theorem FieldsAt.unique {F F' : List FieldPart} {w w' : List STok} {vs : List (W NodeContractField)}
    (h : FieldsAt F w vs) : FieldsAt F' w' vs → ∀ z z', ((w ++ z).map (·.stop)).Nodup → w ++ z = w' ++ z' →
      F = F' ∧ z = z' := by
  induction h generalizing F' w' with
  | nil => intro h'; cases h'; intro z z' _ e; exact ⟨rfl, e⟩
  | cons d1 d2 _ ih =>
    intro h'
    cases h' with
    | cons e1 e2 r =>
      intro z z' hs e
      simp only [List.cons_append, List.append_assoc] at e hs
      obtain ⟨-, q1⟩ := List.cons.inj e
      have hs := nodup_rest hs
      obtain ⟨rfl, q2⟩ := part_cut rfl d1 e1 hs q1
      have hs := nodup_rest (nodup_tail hs)
      obtain ⟨-, q3⟩ := List.cons.inj q2
      obtain ⟨rfl, q4⟩ := part_cut rfl d2 e2 hs q3
      obtain ⟨rfl, rfl⟩ := ih r z z' (nodup_tail hs) q4
      exact ⟨rfl, rfl⟩

theorem CompsAt.unique {C C' : List ComponentPart} {w w' : List STok} {vs : List (W NodeComponentDefinition)}
    (h : CompsAt C w vs) : CompsAt C' w' vs → (w.map (·.stop)).Nodup → w = w' → C = C' := by
  induction h generalizing C' w' with
  | nil => intro h'; cases h'; intros; rfl
  | trans d1 d2 d3 _ ih =>
    intro h'
    cases h' with
    | trans e1 e2 e3 r =>
      intro hs e
      obtain ⟨-, q5⟩ := List.cons.inj e
      have hs := nodup_rest hs
      obtain ⟨rfl, q6⟩ := part_cut rfl d1 e1 hs q5
      have hs := nodup_tail hs
      obtain ⟨rfl, q7⟩ := part_cut rfl d2 e2 hs q6
      have hs := nodup_tail hs
      obtain ⟨rfl, q8⟩ := part_cut rfl d3 e3 hs q7
      rw [ih r (nodup_tail hs) q8]
  | proc d1 d2 d3 _ ih =>
    intro h'
    cases h' with
    | proc e1 e2 e3 r =>
      intro hs e
      obtain ⟨-, q9⟩ := List.cons.inj e
      have hs := nodup_rest hs
      obtain ⟨rfl, q10⟩ := part_cut rfl d1 e1 hs q9
      have hs := nodup_tail hs
      obtain ⟨rfl, q11⟩ := part_cut rfl d2 e2 hs q10
      have hs := nodup_tail hs
      obtain ⟨rfl, q12⟩ := part_cut rfl d3 e3 hs q11
      rw [ih r (nodup_tail hs) q12]

theorem OutlineAt.unique {o o' : Outline} {w : List STok} {p : NodeProgram} (h : OutlineAt o w p)
    (h' : OutlineAt o' w p) (hs : (w.map (·.stop)).Nodup) : o = o' := by
  generalize hw : w = w' at h'
  cases h with
  | mk d1 d2 d3 d4 d5 d6 hF hC =>
    cases h' with
    | mk e1 e2 e3 e4 e5 e6 hF' hC' =>
      obtain ⟨-, q13⟩ := List.cons.inj hw
      have hs := nodup_rest hs
      obtain ⟨rfl, q14⟩ := part_cut rfl d1 e1 hs q13
      have hs := nodup_tail hs
      obtain ⟨rfl, q15⟩ := opt_cut rfl d2 e2 hs q14
      have hs := nodup_tail hs
      obtain ⟨rfl, q16⟩ := opt_cut rfl d3 e3 hs q15
      have hs := nodup_tail hs
      obtain ⟨-, q17⟩ := List.cons.inj q16
      have hs := nodup_rest hs
      obtain ⟨rfl, q18⟩ := part_cut rfl d4 e4 hs q17
      have hs := nodup_tail hs
      obtain ⟨rfl, q19⟩ := part_cut rfl d5 e5 hs q18
      have hs := nodup_tail hs
      obtain ⟨rfl, q20⟩ := opt_cut rfl d6 e6 hs q19
      have hs := nodup_tail hs
      obtain ⟨rfl, q21⟩ := hF.unique hF' _ _ hs q20
      rw [hC.unique hC' (nodup_tail hs) q21]

/-- numbered tokens -/
def numbered : Nat → List Token → List STok
  | _, [] => []
  | k, t :: w => ⟨⟨k, 0, 0⟩, t, ⟨k + 1, 0, 0⟩⟩ :: numbered (k + 1) w

theorem bare_numbered : ∀ (k : Nat) (w : List Token), bare (numbered k w) = w
  | _, [] => rfl
  | k, t :: w => by
    have := bare_numbered (k + 1) w
    simp only [numbered, bare, List.map_cons] at this ⊢
    rw [this]

theorem numbered_mem : ∀ (k : Nat) (w : List Token) (p : Pos), p ∈ (numbered k w).map (·.stop) → k < p.position
  | k, [], p, h => by simp [numbered] at h
  | k, t :: w, p, h => by
    simp only [numbered, List.map_cons, List.mem_cons] at h
    rcases h with rfl | h
    · simp
    · have := numbered_mem (k + 1) w p h
      omega

theorem numbered_nodup : ∀ (k : Nat) (w : List Token), ((numbered k w).map (·.stop)).Nodup
  | _, [] => by simp [numbered]
  | k, t :: w => by
    simp only [numbered, List.map_cons, List.nodup_cons]
    refine ⟨fun h => ?_, numbered_nodup (k + 1) w⟩
    have := numbered_mem _ _ _ h
    simp at this

theorem outline_unique (o o' : Outline) (h : o.Ok) (h' : o'.Ok) (e : o.tokens = o'.tokens) : o = o' := by
  obtain ⟨p, hp, dp⟩ := outlineAt_of o (numbered 0 o.tokens) h (bare_numbered _ _)
  obtain ⟨q, hq, dq⟩ := outlineAt_of o' (numbered 0 o.tokens) h' ((bare_numbered _ _).trans e)
  obtain rfl := C17_unambiguous _ _ _ dp dq
  exact hp.unique hq (numbered_nodup _ _)

/-! ### What emission depends on -/

/-- tokens without positions -/
def Placeless (w : List STok) : Prop := ∀ t ∈ w, t.start = default ∧ t.stop = default

theorem Placeless.eq : ∀ {a b : List STok}, Placeless a → Placeless b → bare a = bare b → a = b
  | [], [], _, _, _ => rfl
  | [], _ :: _, _, _, h => by simp [bare] at h
  | _ :: _, [], _, _, h => by simp [bare] at h
  | x :: a, y :: b, ha, hb, h => by
    simp only [bare, List.map_cons, List.cons.injEq] at h
    obtain ⟨s, t, e⟩ := x
    obtain ⟨s', t', e'⟩ := y
    obtain ⟨rfl, rfl⟩ := ha _ List.mem_cons_self
    obtain ⟨rfl, rfl⟩ := hb _ List.mem_cons_self
    obtain ⟨rfl, h⟩ := h
    rw [Placeless.eq (fun t ht => ha t (List.mem_cons_of_mem _ ht)) (fun t ht => hb t (List.mem_cons_of_mem _ ht)) h]

theorem placeless_lift (w : List Token) : Placeless (lift w) := by
  intro t ht
  obtain ⟨a, -, rfl⟩ := List.mem_map.1 ht
  exact ⟨rfl, rfl⟩

theorem Placeless.left {a b : List STok} (h : Placeless (a ++ b)) : Placeless a :=
  fun t ht => h t (List.mem_append_left _ ht)
theorem Placeless.right {a b : List STok} (h : Placeless (a ++ b)) : Placeless b :=
  fun t ht => h t (List.mem_append_right _ ht)
theorem Placeless.tail {k : STok} {b : List STok} (h : Placeless (k :: b)) : Placeless b :=
  fun t ht => h t (List.mem_cons_of_mem _ ht)

theorem placeless_val {n : NT} (hn : n.base = true) {a b : List STok} {v v' : Val n} (ha : Placeless a)
    (hb : Placeless b) (da : Derives n a v) (db : Derives n b v') (h : bare a = bare b) : v = v' := by
  obtain rfl := ha.eq hb h
  exact C17_unambiguous_category n hn _ _ _ da db

theorem FieldsAt.face {F F' : List FieldPart} {w w' : List STok} {vs vs' : List (W NodeContractField)}
    (h : FieldsAt F w vs) : FieldsAt F' w' vs' → Placeless w → Placeless w' →
      F.map (·.declared) = F'.map (·.declared) → fieldTypedOf vs = fieldTypedOf vs' := by
  induction h generalizing F' w' vs' with
  | nil =>
    intro h' _ _ e
    cases h' with
    | nil => rfl
    | cons => simp at e
  | cons d1 d2 _ ih =>
    intro h' p p' e
    cases h' with
    | nil => simp at e
    | cons e1 e2 r =>
      simp only [List.map_cons, List.cons.injEq] at e
      have h1 := placeless_val rfl p.tail.left p'.tail.left d1 e1 e.1
      have h2 := ih r p.tail.right.tail.right p'.tail.right.tail.right e.2
      simp only [fieldTypedOf, List.map_cons] at h2 ⊢
      rw [h2, h1]

theorem CompsAt.skip {C : List ComponentPart} {w : List STok} {vs : List (W NodeComponentDefinition)}
    (h : CompsAt C w vs) : Placeless w → ∃ G : List (ComponentPart × NodeTransitionDefinition),
      C.filter (·.isTransition) = G.map (·.1) ∧ transitionsOf vs = G.map (·.2) ∧
      ∀ g ∈ G, ∃ a b, Placeless a ∧ Placeless b ∧ bare a = g.1.name ∧ bare b = g.1.params ∧
        Derives .componentId a g.2.name ∧ Derives .compParams b g.2.parameters := by
  induction h with
  | nil => intro _; exact ⟨[], rfl, rfl, by simp⟩
  | trans d1 d2 d3 _ ih =>
    intro p
    obtain ⟨G, h1, h2, h3⟩ := ih p.tail.right.right.right
    rename_i w1 w2 w3 _ n ps y _ _ _ _ _ _ _ _ _
    refine ⟨(⟨true, bare w1, bare w2, bare w3⟩, ⟨n, ps, y⟩) :: G, ?_, ?_, ?_⟩
    · simp only [List.filter_cons, List.map_cons, ← h1]; rfl
    · simp only [List.map_cons, ← h2]; rfl
    · intro g hg
      rcases List.mem_cons.1 hg with rfl | hg
      · exact ⟨_, _, p.tail.left, p.tail.right.left, rfl, rfl, d1, d2⟩
      · exact h3 g hg
  | proc d1 d2 d3 _ ih =>
    intro p
    obtain ⟨G, h1, h2, h3⟩ := ih p.tail.right.right.right
    exact ⟨G, h1, h2, h3⟩

theorem faces_eq : ∀ (G G' : List (ComponentPart × NodeTransitionDefinition)),
    (∀ g ∈ G, ∃ a b, Placeless a ∧ Placeless b ∧ bare a = g.1.name ∧ bare b = g.1.params ∧
        Derives .componentId a g.2.name ∧ Derives .compParams b g.2.parameters) →
    (∀ g ∈ G', ∃ a b, Placeless a ∧ Placeless b ∧ bare a = g.1.name ∧ bare b = g.1.params ∧
        Derives .componentId a g.2.name ∧ Derives .compParams b g.2.parameters) →
    (G.map (·.1)).map (fun c => (c.name, c.params)) = (G'.map (·.1)).map (fun c => (c.name, c.params)) →
    (G.map (·.2)).map (fun t => (componentName t.name.node, typedOf t.parameters.node.parameters)) =
      (G'.map (·.2)).map (fun t => (componentName t.name.node, typedOf t.parameters.node.parameters))
  | [], [], _, _, _ => rfl
  | [], _ :: _, _, _, h => by simp at h
  | _ :: _, [], _, _, h => by simp at h
  | g :: G, g' :: G', h1, h2, h => by
    simp only [List.map_cons, List.cons.injEq, Prod.mk.injEq] at h
    obtain ⟨a, b, pa, pb, ea, eb, da, db⟩ := h1 g List.mem_cons_self
    obtain ⟨a', b', pa', pb', ea', eb', da', db'⟩ := h2 g' List.mem_cons_self
    have k1 := placeless_val rfl pa pa' da da' (ea.trans (h.1.1.trans ea'.symm))
    have k2 := placeless_val rfl pb pb' db db' (eb.trans (h.1.2.trans eb'.symm))
    have k3 := faces_eq G G' (fun g hg => h1 g (List.mem_cons_of_mem _ hg))
      (fun g hg => h2 g (List.mem_cons_of_mem _ hg)) h.2
    simp only [List.map_cons]
    rw [k3, k1, k2]

theorem OutlineAt.face {o o' : Outline} {w w' : List STok} {p p' : NodeProgram} (h : OutlineAt o w p)
    (h' : OutlineAt o' w' p') (hw : Placeless w) (hw' : Placeless w') (hf : o.SameFace o') : SameInterface p p' := by
  cases h with
  | mk d1 d2 d3 d4 d5 d6 hF hC =>
    cases h' with
    | mk e1 e2 e3 e4 e5 e6 hF' hC' =>
      obtain ⟨f1, f2, f3, f4⟩ := hf
      have q := hw.tail.right.right.right.tail
      have q' := hw'.tail.right.right.right.tail
      have g1 := placeless_val rfl q.left q'.left d4 e4 f1
      have g2 := placeless_val rfl q.right.left q'.right.left d5 e5 f2
      have g3 := hF.face hF' q.right.right.right.left q'.right.right.right.left f3
      obtain ⟨G, a1, a2, a3⟩ := hC.skip q.right.right.right.right
      obtain ⟨G', b1, b2, b3⟩ := hC'.skip q'.right.right.right.right
      simp only [a1, b1] at f4
      have g4 := faces_eq G G' a3 b3 f4
      rw [← a2, ← b2] at g4
      exact ⟨by rw [g1], by rw [g2], g3, g4⟩

end Verif
