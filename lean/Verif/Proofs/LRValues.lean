import Verif.Model.LRValues
import Verif.Proofs.LRSpeaks
import Verif.Proofs.Builds
/-
The values on the stack of the LR driver are those the actions compute for the tokens read.
-/
namespace Verif.LR

variable {start : GName} {T : Tables} {I : Items} {P : Nat} {rank : Nat → Nat} {R : Nat}

/-! ### The productions and where they come from -/

theorem altsWith_fst (f : FSym) : (altsWith f).map (·.1) = alts f := by
  cases f with
  | tok k => simp only [altsWith, alts]; cases code k <;> rfl
  | _ => rfl

theorem expandWith_fst : ∀ α : List FSym, (expandWith α).map (·.1) = expand α
  | [] => rfl
  | f :: α => by
    simp only [expandWith, expand, List.map_flatMap, List.map_map]
    rw [← altsWith_fst f, ← expandWith_fst α, List.flatMap_map]
    simp [Function.comp_def]

theorem annotated_fst : annotated.map (·.1) = desugared := by
  have hz : ∀ (l : List FProd) (n : Nat), ((l.zipIdx n).flatMap fun q =>
      ((expandWith q.1.rhs).map fun β => ((⟨num q.1.lhs, β.1⟩, .prod q.2 β.2) : Rule × Origin)).map (·.1)) =
      l.flatMap fun q => (expand q.rhs).map fun β => ⟨num q.lhs, β⟩ := by
    intro l
    induction l with
    | nil => intro n; rfl
    | cons q l ih =>
      intro n
      rw [List.zipIdx_cons, List.flatMap_cons, List.flatMap_cons, ih, ← expandWith_fst q.rhs, List.map_map, List.map_map]
      rfl
  simp only [annotated, desugaredFor, List.map_cons, List.map_append, List.map_flatMap, List.map_nil]
  rw [hz]

theorem mem_expandWith_cons {f : FSym} {α : List FSym} {b : List Sym × List Slot} :
    b ∈ expandWith (f :: α) ↔ ∃ a ∈ altsWith f, ∃ b' ∈ expandWith α, b = (a.1 ++ b'.1, a.2 :: b'.2) := by
  simp only [expandWith, List.mem_flatMap, List.mem_map]
  exact ⟨fun ⟨a, ha, β', hβ, e⟩ => ⟨a, ha, β', hβ, e.symm⟩, fun ⟨a, ha, β', hβ, e⟩ => ⟨a, ha, β', hβ, e.symm⟩⟩

theorem mem_annotated {ro : Rule × Origin} (h : ro ∈ annotated) : ro = (⟨numStart, [.n (num .Program)]⟩, .start) ∨
    (∃ i q, grammarFile[i]? = some q ∧ ∃ β ∈ expandWith q.rhs, ro = (⟨num q.lhs, β.1⟩, .prod i β.2)) ∨
    ∃ x ∈ repeated, ro = (⟨numPlus x, [.n (num x)]⟩, .first) ∨ ro = (⟨numPlus x, [.n (numPlus x), .n (num x)]⟩, .next) := by
  simp only [annotated, List.cons_append, List.mem_cons, List.mem_append, List.mem_flatMap, List.mem_map, List.not_mem_nil,
    or_false] at h
  rcases h with h | ⟨⟨q, i⟩, hq, β, hβ, rfl⟩ | h
  · exact .inl h
  · exact .inr (.inl ⟨i, q, List.mem_zipIdx_iff_getElem?.1 hq, β, hβ, rfl⟩)
  · exact .inr (.inr h)

/-! ### What the entries of the stack stand for -/

/-- the value of a symbol with these tokens -/
def Means : Sym → List STok → RV → Prop
  | .t a, w, v => ∃ t, w = [t] ∧ code t.tok = some a ∧ v = .str t.tok.text
  | .n x, w, v => (∀ g, x = num g → Builds [.non g] [(w, v)]) ∧ ∀ g, x = numPlus g → Builds [.plus g] [(w, v)]

inductive Row : List Sym → List STok → List Entry → Prop
  | nil : Row [] [] []
  | cons {X α w u e es} : Means X w e.val → spanOf w = some (e.start, e.stop) → Row α u es →
      Row (X :: α) (w ++ u) (e :: es)

theorem Row.append {α β : List Sym} {u w : List STok} {es fs : List Entry} (h : Row α u es) (h' : Row β w fs) :
    Row (α ++ β) (u ++ w) (es ++ fs) := by
  induction h with
  | nil => exact h'
  | cons hm hs _ ih => rw [List.append_assoc]; exact .cons hm hs ih

theorem Row.split : ∀ {α β : List Sym} {w : List STok} {es : List Entry}, Row (α ++ β) w es →
    ∃ u v fs gs, w = u ++ v ∧ es = fs ++ gs ∧ Row α u fs ∧ Row β v gs
  | [], _, _, _, h => ⟨[], _, [], _, rfl, rfl, .nil, h⟩
  | X :: α, β, w, es, h => by
    rw [List.cons_append] at h
    cases h with
    | cons hm hs h =>
      obtain ⟨u, v, fs, gs, rfl, rfl, h1, h2⟩ := h.split
      exact ⟨_, v, _, gs, (List.append_assoc ..).symm, rfl, .cons hm hs h1, h2⟩

theorem Row.length {α : List Sym} {w : List STok} {es : List Entry} (h : Row α w es) : es.length = α.length := by
  induction h with
  | nil => rfl
  | cons _ _ _ ih => simp [ih]

theorem stopFrom_append (q : Pos) : ∀ (u w : List STok), stopFrom q (u ++ w) = stopFrom (stopFrom q u) w
  | [], _ => rfl
  | t :: u, w => stopFrom_append t.stop u w

theorem Row.span {α : List Sym} {w : List STok} {es : List Entry} (h : Row α w es) :
    (es = [] ∧ w = []) ∨ ∃ e f, es.head? = some e ∧ es.getLast? = some f ∧ spanOf w = some (e.start, f.stop) := by
  induction h with
  | nil => exact .inl ⟨rfl, rfl⟩
  | @cons X α w u e es hm hs _ ih =>
    refine .inr ?_
    rcases ih with ⟨rfl, rfl⟩ | ⟨e', f, h1, h2, h3⟩
    · exact ⟨e, e, rfl, rfl, by simpa using hs⟩
    · refine ⟨e, f, rfl, ?_, ?_⟩
      · rw [List.getLast?_cons, h2]; rfl
      · cases w with
        | nil => cases hs
        | cons t w =>
          cases u with
          | nil => cases h3
          | cons t' u =>
            simp only [spanOf, Option.some.injEq, Prod.mk.injEq, List.cons_append] at hs h3 ⊢
            refine ⟨hs.1, ?_⟩
            rw [stopFrom_append]
            exact h3.2

/-! ### Reductions -/

theorem builds_plus_inv {x : GName} {w : List STok} {v : RV} (h : Builds [.plus x] [(w, v)]) :
    ∃ u u' v1 vs, w = u ++ u' ∧ v = .vec (v1 :: vs) ∧ Builds [.non x] [(u, v1)] ∧ Builds [.star x] [(u', .vec vs)] := by
  cases h with
  | plus h1 h2 => exact ⟨_, _, _, _, rfl, rfl, h1, h2⟩

theorem builds_star_snoc {x : GName} {u w : List STok} {v : RV} (hv : Builds [.non x] [(w, v)]) : ∀ {vs : List RV},
    Builds [.star x] [(u, .vec vs)] → Builds [.star x] [(u ++ w, .vec (vs ++ [v]))] := by
  suffices h : ∀ {α : List FSym} {ps : List Piece}, Builds α ps → ∀ (x : GName) (u : List STok) (vs : List RV),
      α = [.star x] → ps = [(u, .vec vs)] → Builds [.non x] [(w, v)] →
      Builds [.star x] [(u ++ w, .vec (vs ++ [v]))] from fun {vs} hb => h hb x u vs rfl rfl hv
  intro α ps h
  induction h with
  | nil => intro x u vs e; cases e
  | tok => intro x u vs e; cases e
  | non => intro x u vs e; cases e
  | optNone => intro x u vs e; cases e
  | optSome => intro x u vs e; cases e
  | plus => intro x u vs e; cases e
  | starNil _ _ =>
    intro x u vs e e' hv
    cases e; cases e'
    have := Builds.starCons hv (.starNil .nil)
    simpa using this
  | starCons h1 _ _ ih =>
    intro x u vs e e' hv
    cases e; cases e'
    rw [List.append_assoc]
    exact .starCons h1 (ih _ _ _ rfl rfl hv)

theorem builds_plus_one {x : GName} {u : List STok} {v : RV} (h : Builds [.non x] [(u, v)]) :
    Builds [.plus x] [(u, .vec [v])] := by
  have := Builds.plus h (.starNil .nil)
  simpa using this

theorem builds_plus_star {x : GName} {u : List STok} {v : RV} (h : Builds [.plus x] [(u, v)]) : Builds [.star x] [(u, v)] := by
  obtain ⟨u, u', v1, vs, rfl, rfl, h1, h2⟩ := builds_plus_inv h
  exact .starCons h1 h2

/-- the arguments of an action are the values of the pieces -/
theorem Row.fill : ∀ {α : List FSym} {β : List Sym × List Slot} {w : List STok} {es : List Entry}, (∀ f ∈ α, Ok f) →
    β ∈ expandWith α → Row β.1 w es →
    ∃ ps, LR.fill β.2 es = some (actArgs ps) ∧ Builds α ps ∧ inputOf ps = w
  | [], β, w, es, _, hβ, h => by
    simp only [expandWith, List.mem_singleton] at hβ
    subst hβ
    cases h
    exact ⟨[], rfl, .nil, rfl⟩
  | f :: α, β, w, es, hok, hβ, h => by
    obtain ⟨a, ha, b, hb, rfl⟩ := mem_expandWith_cons.1 hβ
    have hok' : ∀ f ∈ α, Ok f := fun f hf => hok f (.tail _ hf)
    have absent : ∀ {sl : Slot} {v : RV}, a = ([], sl) → (∀ es, LR.fill (sl :: b.2) es = (LR.fill b.2 es).map ((none, v) :: ·)) →
        (∀ ps, Builds α ps → Builds (f :: α) (([], v) :: ps)) →
        ∃ ps, LR.fill (a.2 :: b.2) es = some (actArgs ps) ∧ Builds (f :: α) ps ∧ inputOf ps = w := by
      rintro sl v rfl hfill hbuild
      obtain ⟨ps, h1, h2, h3⟩ := Row.fill hok' hb h
      exact ⟨_, by rw [hfill, h1]; rfl, hbuild ps h2, h3⟩
    have present : ∀ {X : Sym} {sl : Slot} {g : RV → RV}, a = ([X], sl) →
        (∀ e es, LR.fill (sl :: b.2) (e :: es) = (LR.fill b.2 es).map ((some (e.start, e.stop), g e.val) :: ·)) →
        (∀ u v ps, Means X u v → Builds α ps → Builds (f :: α) ((u, g v) :: ps)) →
        ∃ ps, LR.fill (a.2 :: b.2) es = some (actArgs ps) ∧ Builds (f :: α) ps ∧ inputOf ps = w := by
      rintro X sl g rfl hfill hbuild
      cases h with
      | @cons _ _ u u' e es hm hs h =>
        obtain ⟨ps, h1, h2, h3⟩ := Row.fill hok' hb h
        refine ⟨(u, g e.val) :: ps, ?_, hbuild u e.val ps hm h2, ?_⟩
        · rw [hfill, h1]
          simp only [Option.map_some, actArgs, List.map_cons, hs]
        · show u ++ inputOf ps = _
          rw [h3]
    cases f with
    | tok k =>
      simp only [altsWith] at ha
      split at ha
      · rename_i c hc
        rw [List.mem_singleton] at ha
        refine present (g := id) ha (fun e es => rfl) ?_
        rintro u v ps ⟨t, rfl, ht, rfl⟩ hps
        obtain ⟨_, hkk⟩ : (code k).isSome = true ∧ k.kind = k := hok (.tok k) (.head _)
        exact .tok (by rw [code_inj ht hc, hkk]) hps
      · cases ha
    | non x =>
      rw [altsWith, List.mem_singleton] at ha
      exact present (g := id) ha (fun e es => rfl) fun u v ps hm hps => (hm.1 x rfl).cons hps
    | opt x =>
      simp only [altsWith, List.mem_cons, List.not_mem_nil, or_false] at ha
      rcases ha with ha | ha
      · exact absent ha (fun es => by rw [LR.fill.eq_def]) fun ps hps => .optNone hps
      · exact present (g := RV.some) ha (fun e es => rfl) fun u v ps hm hps => .optSome (hm.1 x rfl) hps
    | star x =>
      simp only [altsWith, List.mem_cons, List.not_mem_nil, or_false] at ha
      rcases ha with ha | ha
      · exact absent ha (fun es => by rw [LR.fill.eq_def]) fun ps hps => .starNil hps
      · exact present (g := id) ha (fun e es => rfl) fun u v ps hm hps => (builds_plus_star (hm.2 x rfl)).cons hps
    | plus x =>
      rw [altsWith, List.mem_singleton] at ha
      exact present (g := id) ha (fun e es => rfl) fun u v ps hm hps => (hm.2 x rfl).cons hps

theorem num_ne_numPlus {x y : GName} : num x ≠ numPlus y := by
  have := num_lt x
  rw [numPlus_eq]
  omega

/-- a reduction has a value, and it is the right one -/
theorem reduce_means {p : Nat} {r : Rule} (hr : desugared[p]? = some r) {w : List STok} {es : List Entry}
    (h : Row r.rhs w es) : ∃ v, reduceValue p es = some v ∧ Means (.n r.lhs) w v := by
  rw [← annotated_fst, List.getElem?_map, Option.map_eq_some_iff] at hr
  obtain ⟨ro, hro, rfl⟩ := hr
  simp only [reduceValue, hro, Option.bind_some]
  rcases mem_annotated (List.mem_of_getElem? hro) with rfl | ⟨i, q, hq, β, hβ, rfl⟩ | ⟨x, hx, rfl | rfl⟩
  · cases h with
    | cons hm hs h =>
      cases h
      refine ⟨_, rfl, ?_, ?_⟩
      · intro g hg
        have := num_lt g
        simp only [numStart] at hg
        omega
      · intro g hg
        have := num_lt g
        simp only [numStart, numPlus_eq] at hg
        omega
  · obtain ⟨ps, h1, h2, rfl⟩ := Row.fill (grammarFile_ok (List.mem_of_getElem? hq)) hβ h
    obtain ⟨v, _, hv⟩ := DV.rule hq h2.dv
    obtain ⟨a, ha, hv⟩ := Option.bind_eq_some_iff.1 hv
    refine ⟨_, by simp only [Origin.value, ha, h1, Option.bind_some]; exact hv, ?_, ?_⟩
    · intro g hg
      obtain rfl := num_inj hg
      exact .non hq ha h2 hv .nil
    · intro g hg
      exact absurd hg num_ne_numPlus
  · cases h with
    | cons hm hs h =>
      cases h
      refine ⟨_, rfl, ?_, ?_⟩
      · intro g hg; exact absurd hg.symm num_ne_numPlus
      · intro g hg
        obtain rfl := num_inj (x := x) (y := g) (by simp only [numPlus_eq] at hg; omega)
        rw [List.append_nil]
        exact builds_plus_one (hm.1 _ rfl)
  · cases h with
    | cons hm hs h =>
      cases h with
      | @cons _ _ _ _ f _ hm' hs' h =>
        cases h
        obtain ⟨u, u', v1, vs, rfl, hv, h1, h2⟩ := builds_plus_inv (hm.2 x rfl)
        refine ⟨.vec (v1 :: vs ++ [f.val]), by simp only [Origin.value, hv], ?_, ?_⟩
        · intro g hg; exact absurd hg.symm num_ne_numPlus
        · intro g hg
          obtain rfl := num_inj (x := x) (y := g) (by simp only [numPlus_eq] at hg; omega)
          rw [List.append_nil, List.append_assoc]
          exact .plus h1 (builds_star_snoc (hm'.1 _ rfl) h2)

/-! ### The stack -/

theorem Stk.reduce {G : List Rule} (hG : Tidy G P rank R) (hV : Valid G T I) {s : Nat} {σ : List Nat} {Xs : List Sym} {u : List Nat}
    (h : Stk G T I (s :: σ) Xs u) {la : Option Nat} {p : Nat} (ha : T.action s la = .reduce p) :
    ∃ r, G[p]? = some r ∧ r.rhs ≠ [] ∧ Xs.take r.rhs.length = r.rhs.reverse ∧ (p = 0 → Xs.drop r.rhs.length = []) ∧
      (p ≠ 0 → ∃ st', popGoto G T p (s :: σ) = .more st' ∧ Stk G T I st' (.n r.lhs :: Xs.drop r.rhs.length) u) := by
  obtain ⟨s', σ', e', q, e, hqe⟩ := h.item hV
  injection e' with e1 e2
  subst e1 e2
  obtain ⟨r, hr, hi⟩ := hV.reduceOnly s la p ⟨q, e, hqe⟩ ha
  have hne : r.rhs ≠ [] := hG.noEmpty r (getElem?_mem hr)
  obtain ⟨s0, σ0, u0, v, hd, hs0, hi0, htake, hder, hu⟩ := h.item_back hV rfl hi hr
  rw [List.take_length] at hder htake
  refine ⟨r, hr, hne, htake, ?_, ?_⟩
  · rintro rfl
    have := hV.startOnly _ hi0
    subst this
    generalize Xs.drop _ = Zs at hs0
    cases hs0 with
    | base => rfl
    | push _ hi1 hr1 hX1 hn1 _ => exact absurd hn1 (hV.notBack _ _ _ _ _ hi1 hr1 hX1)
  · intro hp
    refine ⟨T.goto s0 r.lhs :: s0 :: σ0, by simp only [popGoto, hr, hd], ?_⟩
    obtain ⟨height, hh⟩ := hV.because
    rcases hh s0 p r hi0 hr with hp' | ⟨p2, d2, r2, hi2, hr2, hX2, _⟩
    · exact absurd hp' hp
    · rw [hu]
      exact .push hs0 hi2 hr2 hX2 rfl (Der.rule (getElem?_mem hr) hder)

/-- the grammars of the parsers differ in the start production only -/
theorem later_rule (p : Nat) : (desugaredFor start)[p + 1]? = desugared[p + 1]? := rfl

/-- the two stacks after reading some tokens -/
def VInv (start : GName) (T : Tables) (I : Items) (st : List Nat) (vs : List Entry) (got : List STok) : Prop :=
  ∃ Xs u, Stk (desugaredFor start) T I st Xs u ∧ Row Xs.reverse got vs.reverse

theorem vinv_start : VInv start T I [0] [] [] := ⟨[], [], .base, .nil⟩

/-- how a verdict without values goes with one with values -/
inductive Match (start : GName) (T : Tables) (I : Items) (got : List STok) : Option Nat → Verdict → VVerdict → Prop
  | shifted {a st vs} : (∀ t, code t.tok = some a → VInv start T I st (STok.entry t :: vs) (got ++ [t])) →
      Match start T I got (some a) (.shifted st) (.shifted st vs)
  | accept {r} : Builds [.non start] [(got, r)] → Match start T I got none .accept (.accept r)
  | error {la st} : Match start T I got la (.error st) (.error st)
  | extra {a} : Match start T I got (some a) .extra .extra

/-- one round with values does what one without does -/
theorem vstep_sim (hG : Tidy (desugaredFor start) P rank R) (hV : Valid (desugaredFor start) T I) {st : List Nat} {vs : List Entry}
    {got : List STok} (h : VInv start T I st vs got) (la : Option Nat) :
    (∃ st' vs', step (desugaredFor start) T la st = .more st' ∧ vstep (desugaredFor start) T la st vs = .more st' vs' ∧ VInv start T I st' vs' got) ∨
    ∃ v v', step (desugaredFor start) T la st = .done v ∧ vstep (desugaredFor start) T la st vs = .done v' ∧ Match start T I got la v v' := by
  obtain ⟨Xs, u, hst, hrow⟩ := h
  obtain ⟨s, σ, rfl, q, e, hqe⟩ := hst.item hV
  cases ha : T.action s la with
  | shift s' =>
    obtain ⟨a, p, d, r, rfl, hi, hr, hX⟩ := hV.shiftOnly s la s' ⟨q, e, hqe⟩ ha
    refine .inr ⟨.shifted (s' :: s :: σ), .shifted (s' :: s :: σ) vs, by simp only [step, ha], by simp only [vstep, ha], .shifted ?_⟩
    intro t ht
    refine ⟨.t a :: Xs, u ++ [a], .push hst hi hr hX (by simp only [Tables.next, ha]) (by simpa using Der.t (a := a) Der.nil), ?_⟩
    rw [List.reverse_cons, List.reverse_cons]
    refine hrow.append ?_
    have := Row.cons (X := .t a) (w := [t]) (e := STok.entry t) ⟨t, rfl, ht, rfl⟩ rfl .nil
    simpa using this
  | error => exact .inr ⟨.error (s :: σ), .error (s :: σ), by simp only [step, ha], by simp only [vstep, ha], .error⟩
  | reduce p =>
    obtain ⟨r, hr, hne, htake, h0, hn⟩ := hst.reduce hG hV ha
    have hXs : Xs = r.rhs.reverse ++ Xs.drop r.rhs.length := by
      conv => lhs; rw [← List.take_append_drop r.rhs.length Xs, htake]
    have hrow' := hrow
    rw [hXs, List.reverse_append, List.reverse_reverse] at hrow'
    obtain ⟨w1, w2, es1, es2, rfl, hes, hr1, hr2⟩ := hrow'.split
    have hlen := hr2.length
    have hvs : vs = es2.reverse ++ es1.reverse := by
      rw [← List.reverse_reverse vs, hes, List.reverse_append]
    have htk : (vs.take r.rhs.length).reverse = es2 := by
      rw [hvs, ← hlen, ← List.length_reverse (as := es2), List.take_left', List.reverse_reverse]
      rfl
    have hdr : vs.drop r.rhs.length = es1.reverse := by
      rw [hvs, ← hlen, ← List.length_reverse (as := es2), List.drop_left']
      rfl
    rcases hr2.span with ⟨rfl, -⟩ | ⟨ea, eb, hea, heb, hspan⟩
    · exact absurd (List.eq_nil_of_length_eq_zero hlen.symm) hne
    · cases p with
      | zero =>
        cases la with
        | some a => exact .inr ⟨.extra, .extra, by simp only [step, ha], by simp only [vstep, ha], .extra⟩
        | none =>
          obtain ⟨S, hS, _⟩ := hG.start
          rw [hS] at hr
          have hP : (desugaredFor start)[0]? = some ⟨numStart, [.n (num start)]⟩ := rfl
          rw [hP] at hS
          obtain rfl := Option.some.inj hr
          rw [h0 rfl] at hr1
          cases hr1 with
          | nil =>
            cases hr2 with
            | @cons _ _ w _ e _ hm _ hx =>
              cases hx
              have := (Option.some.inj hS)
              simp only [Rule.mk.injEq, List.cons.injEq, Sym.n.injEq, and_true] at this
              refine .inr ⟨_, .accept e.val, by simp only [step, ha], ?_, .accept ?_⟩
              · rw [hvs]
                simp only [vstep, ha]
                rfl
              · have := hm.1 start this.2.symm
                simpa using this
      | succ p =>
        obtain ⟨st', hg, hst'⟩ := hn (by omega)
        obtain ⟨v, hv, hm⟩ := reduce_means (later_rule p ▸ hr) hr2
        refine .inl ⟨st', ⟨ea.start, v, eb.stop⟩ :: es1.reverse, by simp only [step, ha]; exact hg, ?_, _, u, hst', ?_⟩
        · simp only [vstep, ha, vPopGoto, hr, htk, hdr, hea, heb, hv, hg]
        · rw [List.reverse_cons, List.reverse_cons, List.reverse_reverse]
          refine hr1.append ?_
          have := Row.cons (X := .n r.lhs) (w := w2) (e := ⟨ea.start, v, eb.stop⟩) hm hspan .nil
          simpa using this

theorem settles_v (hG : Tidy (desugaredFor start) P rank R) (hV : Valid (desugaredFor start) T I) {la : Option Nat} {n : Nat} {st : List Nat}
    {v : Verdict} (h : Settles (desugaredFor start) T la n st v) : ∀ {vs : List Entry} {got : List STok}, VInv start T I st vs got →
      ∃ v', VSettles (desugaredFor start) T la n st vs v' ∧ Match start T I got la v v' := by
  induction h with
  | done hs =>
    intro vs got hi
    rcases vstep_sim hG hV hi la with ⟨st', vs', h1, h2, h3⟩ | ⟨v, v', h1, h2, h3⟩
    · rw [hs] at h1; cases h1
    · rw [hs] at h1; cases h1; exact ⟨v', .done h2, h3⟩
  | more hs _ ih =>
    intro vs got hi
    rcases vstep_sim hG hV hi la with ⟨st', vs', h1, h2, h3⟩ | ⟨v, v', h1, h2, h3⟩
    · rw [hs] at h1; cases h1
      obtain ⟨v', h4, h5⟩ := ih h3
      exact ⟨v', .more h2 h4, h5⟩
    · rw [hs] at h1; cases h1

theorem v_settles (hG : Tidy (desugaredFor start) P rank R) (hV : Valid (desugaredFor start) T I) {la : Option Nat} {n : Nat} {st : List Nat}
    {vs : List Entry} {v' : VVerdict} (h : VSettles (desugaredFor start) T la n st vs v') : ∀ {got : List STok}, VInv start T I st vs got →
      ∃ v, Settles (desugaredFor start) T la n st v ∧ Match start T I got la v v' := by
  induction h with
  | done hs =>
    intro got hi
    rcases vstep_sim hG hV hi la with ⟨st', vs', h1, h2, h3⟩ | ⟨v, v', h1, h2, h3⟩
    · rw [hs] at h2; cases h2
    · rw [hs] at h2; cases h2; exact ⟨v, .done h1, h3⟩
  | more hs _ ih =>
    intro got hi
    rcases vstep_sim hG hV hi la with ⟨st', vs', h1, h2, h3⟩ | ⟨v, v', h1, h2, h3⟩
    · rw [hs] at h2; cases h2
      obtain ⟨v, h4, h5⟩ := ih h3
      exact ⟨v, .more h1 h4, h5⟩
    · rw [hs] at h2; cases h2

/-- how an outcome without values goes with one with values -/
inductive Same (start : GName) : Outcome → VOutcome → Prop
  | accept {toks r} : Builds [.non start] [(toks, r)] → Same start (.accept toks) (.accept r)
  | badToken {got t st} : Same start (.badToken got t st) (.badToken got t st)
  | badEof {got st} : Same start (.badEof got st) (.badEof got st)
  | extraToken {t} : Same start (.extraToken t) (.extraToken t)
  | lexerPanic : Same start .lexerPanic .lexerPanic
  | stuck : Same start .stuck .stuck

theorem drive_v (hG : Tidy (desugaredFor start) P rank R) (hV : Valid (desugaredFor start) T I) {U : CharClass} {n : Nat} {σ : LexState}
    {st : List Nat} {got : List STok} {o : Outcome} (h : Drive (desugaredFor start) T code U n σ st got o) :
    ∀ {vs : List Entry}, VInv start T I st vs got → ∃ o', VDrive (desugaredFor start) T code U n σ st vs got o' ∧ Same start o o' := by
  induction h with
  | accept hl hs =>
    intro vs hi
    obtain ⟨v', h1, h2⟩ := settles_v hG hV hs hi
    cases h2 with | accept hb => exact ⟨_, .accept hl h1, .accept hb⟩
  | badEof hl hs =>
    intro vs hi
    obtain ⟨v', h1, h2⟩ := settles_v hG hV hs hi
    cases h2
    exact ⟨_, .badEof hl h1, .badEof⟩
  | stuckEof hl hs =>
    intro vs hi
    obtain ⟨v', h1, h2⟩ := settles_v hG hV hs hi
    cases h2
  | lexerPanic hl => intro vs hi; exact ⟨_, .lexerPanic hl, .lexerPanic⟩
  | noTerminal hl hc => intro vs hi; exact ⟨_, .noTerminal hl hc, .badToken⟩
  | shift hl hc hs _ ih =>
    intro vs hi
    obtain ⟨v', h1, h2⟩ := settles_v hG hV hs hi
    cases h2 with
    | shifted h =>
      obtain ⟨o', h3, h4⟩ := ih (h _ hc)
      exact ⟨o', .shift hl hc h1 h3, h4⟩
  | badToken hl hc hs =>
    intro vs hi
    obtain ⟨v', h1, h2⟩ := settles_v hG hV hs hi
    cases h2
    exact ⟨_, .badToken hl hc h1, .badToken⟩
  | extra hl hc hs =>
    intro vs hi
    obtain ⟨v', h1, h2⟩ := settles_v hG hV hs hi
    cases h2
    exact ⟨_, .extra hl hc h1, .extraToken⟩
  | stuckTok hl hc hs =>
    intro vs hi
    obtain ⟨v', h1, h2⟩ := settles_v hG hV hs hi
    cases h2

theorem v_drive (hG : Tidy (desugaredFor start) P rank R) (hV : Valid (desugaredFor start) T I) {U : CharClass} {n : Nat} {σ : LexState}
    {st : List Nat} {vs : List Entry} {got : List STok} {o' : VOutcome} (h : VDrive (desugaredFor start) T code U n σ st vs got o') :
    VInv start T I st vs got → ∃ o, Drive (desugaredFor start) T code U n σ st got o ∧ Same start o o' := by
  induction h with
  | accept hl hs =>
    intro hi
    obtain ⟨v, h1, h2⟩ := v_settles hG hV hs hi
    cases h2 with | accept hb => exact ⟨_, .accept hl h1, .accept hb⟩
  | badEof hl hs =>
    intro hi
    obtain ⟨v, h1, h2⟩ := v_settles hG hV hs hi
    cases h2
    exact ⟨_, .badEof hl h1, .badEof⟩
  | stuckEof hl hs =>
    intro hi
    obtain ⟨v, h1, h2⟩ := v_settles hG hV hs hi
    cases h2
  | lexerPanic hl => intro hi; exact ⟨_, .lexerPanic hl, .lexerPanic⟩
  | noTerminal hl hc => intro hi; exact ⟨_, .noTerminal hl hc, .badToken⟩
  | shift hl hc hs _ ih =>
    intro hi
    obtain ⟨v, h1, h2⟩ := v_settles hG hV hs hi
    cases h2 with
    | shifted h =>
      obtain ⟨o, h3, h4⟩ := ih (h _ hc)
      exact ⟨o, .shift hl hc h1 h3, h4⟩
  | badToken hl hc hs =>
    intro hi
    obtain ⟨v, h1, h2⟩ := v_settles hG hV hs hi
    cases h2
    exact ⟨_, .badToken hl hc h1, .badToken⟩
  | extra hl hc hs =>
    intro hi
    obtain ⟨v, h1, h2⟩ := v_settles hG hV hs hi
    cases h2
    exact ⟨_, .extra hl hc h1, .extraToken⟩
  | stuckTok hl hc hs =>
    intro hi
    obtain ⟨v, h1, h2⟩ := v_settles hG hV hs hi
    cases h2

end Verif.LR
