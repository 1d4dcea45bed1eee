import Verif.Proofs.LRComplete
/-
Soundness of LR parsing with valid tables: the stack always spells a viable prefix; termination in linear time.
-/
namespace Verif.LR

variable {G : List Rule} {T : Tables} {I : Items} {P : Nat} {rank : Nat → Nat} {R : Nat}

/-- a stack of states, the symbols between them (top first), and the terminals read so far -/
inductive Stk (G : List Rule) (T : Tables) (I : Items) : List Nat → List Sym → List Nat → Prop
  | base : Stk G T I [0] [] []
  | push {s σ Xs u p d r X s' x} : Stk G T I (s :: σ) Xs u → I.It s p d → G[p]? = some r → r.rhs[d]? = some X →
      T.next s X = some s' → Der G [X] x → Stk G T I (s' :: s :: σ) (X :: Xs) (u ++ x)

theorem Stk.item (hV : Valid G T I) {st : List Nat} {Xs : List Sym} {u : List Nat} (h : Stk G T I st Xs u) :
    ∃ s σ, st = s :: σ ∧ ∃ q d, I.It s q d := by
  cases h with
  | base => exact ⟨0, [], rfl, 0, 0, hV.start.1⟩
  | @push s σ Xs u p d r X s' x _ hi hr hX hn _ =>
    obtain ⟨s2, hn2, hi2, _⟩ := hV.next _ _ _ _ _ hi hr hX
    rw [hn] at hn2
    obtain rfl := Option.some.inj hn2
    exact ⟨_, _, rfl, _, _, hi2⟩

theorem take_succ {α : List Sym} {d : Nat} {X : Sym} (h : α[d]? = some X) : α.take (d + 1) = α.take d ++ [X] := by
  rw [List.take_add_one, h]; rfl

theorem drop_eq_cons {α : List Sym} {d : Nat} {X : Sym} (h : α[d]? = some X) : α.drop d = X :: α.drop (d + 1) := by
  obtain ⟨hd, rfl⟩ := List.getElem?_eq_some_iff.1 h
  exact List.drop_eq_getElem_cons hd

/-- the symbols before the dot of an item are on top of the stack, and the item began below them -/
theorem Stk.item_back (hV : Valid G T I) {st : List Nat} {Xs : List Sym} {u : List Nat} (h : Stk G T I st Xs u) :
    ∀ {s σ p d r}, st = s :: σ → I.It s p d → G[p]? = some r →
      ∃ s0 σ0 u0 v, st.drop d = s0 :: σ0 ∧ Stk G T I (s0 :: σ0) (Xs.drop d) u0 ∧ I.It s0 p 0 ∧
        Xs.take d = (r.rhs.take d).reverse ∧ Der G (r.rhs.take d) v ∧ u = u0 ++ v := by
  induction h with
  | base =>
    intro s σ p d r e hi hr
    injection e with e1 e2
    subst e1 e2
    have := hV.initial p d hi
    subst this
    exact ⟨0, [], [], [], rfl, .base, hi, by simp, by simpa using Der.nil, rfl⟩
  | @push s σ Xs u p' d' r' X s' x hs hi' hr' hX hn hx ih =>
    intro s1 σ1 p d r e hi hr
    injection e with e1 e2
    subst e1 e2
    cases d with
    | zero =>
      exact ⟨s', s :: σ, u ++ x, [], rfl, .push hs hi' hr' hX hn hx, hi, by simp, by simpa using Der.nil, by simp⟩
    | succ d =>
      obtain ⟨hi0, r2, hr2, hX2⟩ := hV.from_ s p' d' r' X s' p d hi' hr' hX hn hi
      rw [hr] at hr2
      obtain rfl := Option.some.inj hr2
      obtain ⟨s0, σ0, u0, v, h1, h2, h3, h4, h5, rfl⟩ := ih rfl hi0 hr
      refine ⟨s0, σ0, u0, v ++ x, ?_, ?_, h3, ?_, ?_, by rw [List.append_assoc]⟩
      · rw [List.drop_succ_cons]; exact h1
      · rw [List.drop_succ_cons]; exact h2
      · rw [take_succ hX2, List.take_succ_cons, h4, List.reverse_append]; rfl
      · rw [take_succ hX2]; exact h5.snoc hx

/-- every symbol list that is part of a right side derives something -/
theorem derives_some (hG : Tidy G P rank R) {r : Rule} (hr : r ∈ G) : ∀ α : List Sym, (∀ X ∈ α, X ∈ r.rhs) → ∃ w, Der G α w
  | [], _ => ⟨[], .nil⟩
  | .t a :: α, h => by
    obtain ⟨w, hw⟩ := derives_some hG hr α fun X hX => h X (.tail _ hX)
    exact ⟨_, .t hw⟩
  | .n x :: α, h => by
    obtain ⟨w, hw⟩ := derives_some hG hr α fun X hX => h X (.tail _ hX)
    obtain ⟨u, hu⟩ := hG.productive r hr x (h _ (.head _))
    exact ⟨_, hu.cons hw⟩

/-- what follows the dot of an item can follow what has been read -/
theorem Stk.viable (hG : Tidy G P rank R) (hV : Valid G T I) {st : List Nat} {Xs : List Sym} {u : List Nat}
    (h : Stk G T I st Xs u) :
    ∀ {s σ p d r v}, st = s :: σ → I.It s p d → G[p]? = some r → Der G (r.rhs.drop d) v →
      ∃ z, Der G [.n P] (u ++ (v ++ z)) := by
  obtain ⟨height, hh⟩ := hV.because
  obtain ⟨S, h0, _⟩ := hG.start
  have left : ∀ (s : Nat) (u : List Nat), (I.It s 0 0 → u = []) →
      (∀ p d r v, I.It s p (d + 1) → G[p]? = some r → Der G (r.rhs.drop (d + 1)) v →
        ∃ z, Der G [.n P] (u ++ (v ++ z))) →
      ∀ n p d r v, height s p d ≤ n → I.It s p d → G[p]? = some r → Der G (r.rhs.drop d) v →
        ∃ z, Der G [.n P] (u ++ (v ++ z)) := by
    intro s u hu hk n
    induction n with
    | zero =>
      intro p d r v hn hi hr hd
      cases d with
      | succ d => exact hk p d r v hi hr hd
      | zero =>
        rcases hh s p r hi hr with rfl | ⟨p2, d2, r2, _, _, _, hlt⟩
        · rw [h0] at hr
          obtain rfl := Option.some.inj hr
          obtain rfl := hu hi
          exact ⟨[], by simpa using hd⟩
        · omega
    | succ n ih =>
      intro p d r v hn hi hr hd
      cases d with
      | succ d => exact hk p d r v hi hr hd
      | zero =>
        rcases hh s p r hi hr with rfl | ⟨p2, d2, r2, hi2, hr2, hX, hlt⟩
        · rw [h0] at hr
          obtain rfl := Option.some.inj hr
          obtain rfl := hu hi
          exact ⟨[], by simpa using hd⟩
        · obtain ⟨w, hw⟩ := derives_some hG (getElem?_mem hr2) (r2.rhs.drop (d2 + 1)) fun X hX => List.mem_of_mem_drop hX
          have hv : Der G (r2.rhs.drop d2) (v ++ w) := by
            rw [drop_eq_cons hX]
            exact (Der.rule (getElem?_mem hr) hd).cons hw
          obtain ⟨z, hz⟩ := ih p2 d2 r2 _ (by omega) hi2 hr2 hv
          exact ⟨w ++ z, by simpa using hz⟩
  induction h with
  | base =>
    intro s σ p d r v e hi hr hd
    injection e with e1 e2
    subst e1 e2
    refine left 0 [] (fun _ => rfl) ?_ _ p d r v (Nat.le_refl _) hi hr hd
    intro p d r v hi
    exact absurd (hV.initial _ _ hi) (by omega)
  | @push s σ Xs u p' d' r' X s' x hs hi' hr' hX hn hx ih =>
    intro s1 σ1 p d r v e hi hr hd
    injection e with e1 e2
    subst e1 e2
    refine left s' (u ++ x) ?_ ?_ _ p d r v (Nat.le_refl _) hi hr hd
    · intro h00
      exact absurd (hV.startOnly _ h00 ▸ hn) (hV.notBack s p' d' r' X hi' hr' hX)
    · intro p d r v hi hr hd
      obtain ⟨hi0, r2, hr2, hX2⟩ := hV.from_ s p' d' r' X s' p d hi' hr' hX hn hi
      rw [hr] at hr2
      obtain rfl := Option.some.inj hr2
      obtain ⟨z, hz⟩ := ih (v := x ++ v) rfl hi0 hr (by rw [drop_eq_cons hX2]; exact hx.cons hd)
      exact ⟨z, by simpa using hz⟩

/-- a bound for the number of reductions that can still be made -/
def pot (rank : Nat → Nat) (R : Nat) : List Sym → Nat
  | [] => 0
  | .t _ :: Xs => (R + 1) * (Xs.length + 1)
  | .n x :: Xs => (R + 1) * (Xs.length + 1) - rank x

/-- the symbol on top is not of the set of `Valid.final` -/
def NotFin (fin : Nat → Prop) (Xs : List Sym) : Prop := ∀ x Ys, Xs = .n x :: Ys → ¬ fin x

/-- What a step does to a good stack. -/
theorem Stk.step (hG : Tidy G P rank R) (hV : Valid G T I) {fin : Nat → Prop}
    (hf0 : ∀ r, G[0]? = some r → fin r.lhs)
    (hf1 : ∀ s a p r, I.It s p r.rhs.length → G[p]? = some r → fin r.lhs → T.action s (some a) = .reduce p →
      ∃ α x, r.rhs = α ++ [.n x] ∧ fin x)
    (hf2 : ∀ s p d r x, I.It s p (d + 1) → G[p]? = some r → r.rhs[d]? = some (.n x) → fin x → T.action s none = .reduce p)
    {st : List Nat} {Xs : List Sym} {u : List Nat} (h : Stk G T I st Xs u) (la : Option Nat)
    (hfin : la ≠ none → NotFin fin Xs) :
    (∃ st' Xs', LR.step G T la st = .more st' ∧ Stk G T I st' Xs' u ∧ pot rank R Xs' < pot rank R Xs ∧
      (la ≠ none → NotFin fin Xs')) ∨
    (∃ a st', la = some a ∧ LR.step G T la st = .done (.shifted st') ∧ Stk G T I st' (.t a :: Xs) (u ++ [a]) ∧
      ∃ z, Der G [.n P] (u ++ a :: z)) ∨
    (la = none ∧ LR.step G T la st = .done .accept ∧ Der G [.n P] u) ∨
    (LR.step G T la st = .done (.error st) ∧ NotFin fin Xs) := by
  obtain ⟨s, σ, rfl, q, e, hqe⟩ := h.item hV
  cases ha : T.action s la with
  | shift s' =>
    obtain ⟨a, p, d, r, rfl, hi, hr, hX⟩ := hV.shiftOnly s la s' ⟨q, e, hqe⟩ ha
    refine .inr (.inl ⟨a, s' :: s :: σ, rfl, by simp only [LR.step, ha], ?_, ?_⟩)
    · refine .push h hi hr hX ?_ (by simpa using Der.t (a := a) Der.nil)
      simp only [Tables.next, ha]
    · obtain ⟨w, hw⟩ := derives_some hG (getElem?_mem hr) (r.rhs.drop (d + 1)) fun X hX => List.mem_of_mem_drop hX
      obtain ⟨z, hz⟩ := h.viable hG hV (v := a :: w) rfl hi hr (by rw [drop_eq_cons hX]; exact .t hw)
      exact ⟨w ++ z, by simpa using hz⟩
  | error =>
    refine .inr (.inr (.inr ⟨by simp only [LR.step, ha], ?_⟩))
    intro x Ys hx hfx
    cases la with
    | some a => exact hfin (by simp) x Ys hx hfx
    | none =>
      subst hx
      cases h with
      | push hs hi hr hX hn _ =>
        obtain ⟨s2, hn2, hi2, _⟩ := hV.next _ _ _ _ _ hi hr hX
        rw [hn] at hn2
        obtain rfl := Option.some.inj hn2
        rw [hf2 _ _ _ _ x hi2 hr hX hfx] at ha
        cases ha
  | reduce p =>
    obtain ⟨r, hr, hi⟩ := hV.reduceOnly s la p ⟨q, e, hqe⟩ ha
    have hne : r.rhs ≠ [] := hG.noEmpty r (getElem?_mem hr)
    obtain ⟨s0, σ0, u0, v, hd, hs0, hi0, htake, hder, hu⟩ := h.item_back hV rfl hi hr
    rw [List.take_length] at hder htake
    have hlast : ∀ α x, r.rhs = α ++ [.n x] → ∃ Ys, Xs = .n x :: Ys := by
      intro α x hα
      rw [hα, List.reverse_append] at htake
      cases Xs with
      | nil => simp at htake
      | cons Y Ys =>
        rw [List.length_append, List.length_singleton, List.take_succ_cons] at htake
        simp only [List.reverse_singleton, List.singleton_append, List.cons.injEq] at htake
        exact ⟨Ys, by rw [htake.1]⟩
    cases p with
    | zero =>
      cases la with
      | none =>
        refine .inr (.inr (.inl ⟨rfl, by simp only [LR.step, ha], ?_⟩))
        obtain ⟨S, h0, _⟩ := hG.start
        rw [h0] at hr
        obtain rfl := Option.some.inj hr
        have := hV.startOnly _ hi0
        subst this
        generalize Xs.drop _ = Zs at hs0
        cases hs0 with
        | base => rw [hu]; simpa using hder
        | push _ hi1 hr1 hX1 hn1 _ => exact absurd hn1 (hV.notBack _ _ _ _ _ hi1 hr1 hX1)
      | some a =>
        obtain ⟨α, x, hα, hx⟩ := hf1 s a 0 r hi hr (hf0 r hr) ha
        obtain ⟨Ys, hY⟩ := hlast α x hα
        exact absurd hx (hfin (by simp) x Ys hY)
    | succ p =>
      refine .inl ⟨T.goto s0 r.lhs :: s0 :: σ0, .n r.lhs :: Xs.drop r.rhs.length, ?_, ?_, ?_, ?_⟩
      · simp only [LR.step, ha, popGoto, hr, hd]
      · have hb := hV.because
        obtain ⟨height, hh⟩ := hb
        rcases hh s0 (p + 1) r hi0 hr with hp | ⟨p2, d2, r2, hi2, hr2, hX2, _⟩
        · omega
        · rw [hu]
          exact .push hs0 hi2 hr2 hX2 rfl (Der.rule (getElem?_mem hr) hder)
      · have hb : rank r.lhs ≤ R := hG.bound _
        have hlen : r.rhs.length ≤ Xs.length := by
          have := congrArg List.length htake
          rw [List.length_take, List.length_reverse] at this
          omega
        match hrhs : r.rhs, hne with
        | [X], _ =>
          rw [hrhs] at htake hlen
          cases Xs with
          | nil => simp at hlen
          | cons Y Ys =>
            simp only [List.length_singleton, List.take_succ_cons, List.take_zero, List.reverse_singleton,
              List.cons.injEq, and_true] at htake
            subst htake
            have hpos : R < (R + 1) * (Ys.length + 1) := by
              have : (R + 1) * 1 ≤ (R + 1) * (Ys.length + 1) := Nat.mul_le_mul_left _ (by omega)
              omega
            simp only [List.length_singleton, List.drop_succ_cons, List.drop_zero]
            cases Y with
            | t a =>
              have := hG.unitTok r (getElem?_mem hr) a hrhs
              simp only [pot]
              omega
            | n x =>
              have := hG.unit r (getElem?_mem hr) x hrhs
              simp only [pot]
              omega
        | X :: Y :: α, _ =>
          rw [hrhs] at hlen
          simp only [List.length_cons] at hlen
          have h1 : pot rank R (.n r.lhs :: Xs.drop (X :: Y :: α).length) ≤ (R + 1) * (Xs.length - 1) := by
            simp only [pot, List.length_drop, List.length_cons]
            have : (R + 1) * (Xs.length - (α.length + 1 + 1) + 1) ≤ (R + 1) * (Xs.length - 1) :=
              Nat.mul_le_mul_left _ (by omega)
            omega
          have h2 : (R + 1) * (Xs.length - 1) + 1 ≤ pot rank R Xs := by
            cases Xs with
            | nil => simp at hlen
            | cons Z Zs =>
              simp only [List.length_cons, Nat.add_sub_cancel]
              have e : (R + 1) * (Zs.length + 1) = (R + 1) * Zs.length + (R + 1) := Nat.mul_succ _ _
              cases Z with
              | t a => simp only [pot]; omega
              | n x =>
                have := hG.bound x
                simp only [pot]; omega
          omega
      · intro hla x Ys hx hfx
        simp only [List.cons.injEq, Sym.n.injEq] at hx
        rw [← hx.1] at hfx
        cases la with
        | none => exact hla rfl
        | some a =>
          obtain ⟨α, x, hα, hx⟩ := hf1 s a _ r hi hr hfx ha
          obtain ⟨Ys, hY⟩ := hlast α x hα
          exact hfin (by simp) x Ys hY hx

/-- a stack the parser can have after reading `u`, with at most `n` reductions to come -/
def Good (G : List Rule) (T : Tables) (I : Items) (rank : Nat → Nat) (R : Nat) (fin : Nat → Prop) (st : List Nat)
    (u : List Nat) (n : Nat) : Prop :=
  ∃ Xs, Stk G T I st Xs u ∧ NotFin fin Xs ∧ pot rank R Xs ≤ n

theorem pot_shift (Xs : List Sym) (hb : ∀ x, rank x ≤ R) (a : Nat) : pot rank R (.t a :: Xs) ≤ pot rank R Xs + (2 * R + 1) := by
  have e : (R + 1) * (Xs.length + 1) = (R + 1) * Xs.length + (R + 1) := Nat.mul_succ _ _
  cases Xs with
  | nil => simp only [pot, List.length_nil] at *; omega
  | cons X Xs =>
    cases X with
    | t b => simp only [pot, List.length_cons] at *; omega
    | n x =>
      have := hb x
      simp only [pot, List.length_cons] at *
      omega

/-- From a stack that is good every lookahead is dealt with, and the stack stays good. -/
def Settling (G : List Rule) (T : Tables) (I : Items) (P : Nat) (rank : Nat → Nat) (R : Nat) (fin : Nat → Prop) : Prop :=
  ∀ {st : List Nat} {u : List Nat} {k : Nat} (_ : Good G T I rank R fin st u k) (la : Option Nat),
      ∃ n v, Settles G T la n st v ∧
        ((∃ a st' m, la = some a ∧ v = .shifted st' ∧ Good G T I rank R fin st' (u ++ [a]) m ∧
            n + m ≤ k + (2 * R + 2) ∧ ∃ z, Der G [.n P] (u ++ a :: z)) ∨
         (la = none ∧ v = .accept ∧ Der G [.n P] u ∧ n ≤ k + 1) ∨
         (∃ st', v = .error st' ∧ Good G T I rank R fin st' u k ∧ n ≤ k + 1))

/-- The parser deals with every lookahead, in a number of rounds paid for by the stack. -/
theorem settle (hG : Tidy G P rank R) (hV : Valid G T I) : ∃ fin : Nat → Prop, Settling G T I P rank R fin := by
  obtain ⟨fin, hf0, hf1, hf2⟩ := hV.final
  refine ⟨fin, fun {st u k} hgood la => ?_⟩
  obtain ⟨Xs, hst, hfin, hpot⟩ := hgood
  -- one induction on the potential
  suffices key : ∀ k st Xs, Stk G T I st Xs u → (la ≠ none → NotFin fin Xs) → pot rank R Xs ≤ k →
      ∃ n v, Settles G T la n st v ∧
        ((∃ a st' m, la = some a ∧ v = .shifted st' ∧ Good G T I rank R fin st' (u ++ [a]) m ∧
            n + m ≤ k + (2 * R + 2) ∧ ∃ z, Der G [.n P] (u ++ a :: z)) ∨
         (la = none ∧ v = .accept ∧ Der G [.n P] u ∧ n ≤ k + 1) ∨
         (∃ st', v = .error st' ∧ Good G T I rank R fin st' u k ∧ n ≤ k + 1)) from
    key k st Xs hst (fun _ => hfin) hpot
  intro k
  induction k with
  | zero =>
    intro st Xs hst hfin hpot
    rcases hst.step hG hV hf0 hf1 hf2 la hfin with ⟨st', Xs', hs, hst', hlt, hfin'⟩ | ⟨a, st', rfl, hs, hst', hz⟩ |
      ⟨rfl, hs, hd⟩ | ⟨hs, hnf⟩
    · omega
    · have := pot_shift (rank := rank) (R := R) Xs hG.bound a
      exact ⟨1, _, .done hs, .inl ⟨a, st', pot rank R (.t a :: Xs), rfl, rfl,
        ⟨.t a :: Xs, hst', (fun x Ys h => by cases h), Nat.le_refl _⟩, by omega, hz⟩⟩
    · exact ⟨1, _, .done hs, .inr (.inl ⟨rfl, rfl, hd, by omega⟩)⟩
    · exact ⟨1, _, .done hs, .inr (.inr ⟨st, rfl, ⟨Xs, hst, hnf, hpot⟩, by omega⟩)⟩
  | succ k ih =>
    intro st Xs hst hfin hpot
    rcases hst.step hG hV hf0 hf1 hf2 la hfin with ⟨st', Xs', hs, hst', hlt, hfin'⟩ | ⟨a, st', rfl, hs, hst', hz⟩ |
      ⟨rfl, hs, hd⟩ | ⟨hs, hnf⟩
    · obtain ⟨n, v, hset, hcase⟩ := ih st' Xs' hst' hfin' (by omega)
      refine ⟨n + 1, v, .more hs hset, ?_⟩
      rcases hcase with ⟨a, st2, m, h1, h2, h3, h4, h5⟩ | ⟨h1, h2, h3, h4⟩ | ⟨st2, h1, ⟨Ys, h2, h3, h4⟩, h5⟩
      · exact .inl ⟨a, st2, m, h1, h2, h3, by omega, h5⟩
      · exact .inr (.inl ⟨h1, h2, h3, by omega⟩)
      · exact .inr (.inr ⟨st2, h1, ⟨Ys, h2, h3, by omega⟩, by omega⟩)
    · have := pot_shift (rank := rank) (R := R) Xs hG.bound a
      exact ⟨1, _, .done hs, .inl ⟨a, st', pot rank R (.t a :: Xs), rfl, rfl,
        ⟨.t a :: Xs, hst', (fun x Ys h => by cases h), Nat.le_refl _⟩, by omega, hz⟩⟩
    · exact ⟨1, _, .done hs, .inr (.inl ⟨rfl, rfl, hd, by omega⟩)⟩
    · exact ⟨1, _, .done hs, .inr (.inr ⟨st, rfl, ⟨Xs, hst, hnf, hpot⟩, by omega⟩)⟩

theorem good_start (fin : Nat → Prop) : Good G T I rank R fin [0] [] 0 :=
  ⟨[], .base, fun x Ys h => (by cases h), by simp [pot]⟩

end Verif.LR
