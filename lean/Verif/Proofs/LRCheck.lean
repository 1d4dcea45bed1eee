import Verif.Spec.LRCheck
import Verif.Proofs.LRComplete
/-
The check of concrete tables is sound.
-/
namespace Verif.LR

variable {G : List Rule} {F : List Nat} {S : List State}

theorem sub_bit {a b k : Nat} (h : sub a b = true) (hk : a.testBit k = true) : b.testBit k = true := by
  simp only [sub, beq_iff_eq] at h
  rw [← h, Nat.testBit_and, Bool.and_eq_true] at hk
  exact hk.2

theorem hasItem_spec {L : List Item} {p d la : Nat} (h : hasItem L p d la = true) :
    ∃ j ∈ L, j.p = p ∧ j.d = d ∧ ∀ k, la.testBit k = true → j.la.testBit k = true := by
  simp only [hasItem, List.any_eq_true, Bool.and_eq_true, beq_iff_eq] at h
  obtain ⟨j, hj, ⟨hp, hd⟩, hs⟩ := h
  exact ⟨j, hj, hp, hd, fun k hk => sub_bit hs hk⟩

theorem hasRules_spec {L : List Item} {x la : Nat} : ∀ {rs : List Rule} {q0 : Nat}, hasRules L x la rs q0 = true →
    ∀ k r, rs[k]? = some r → r.lhs = x → hasItem L (q0 + k) 0 la = true
  | [], _, _, k, r, hk, _ => by simp at hk
  | r0 :: rs, q0, h, k, r, hk, hx => by
    simp only [hasRules, Bool.and_eq_true] at h
    cases k with
    | zero =>
      simp only [List.getElem?_cons_zero, Option.some.injEq] at hk
      subst hk
      rcases Bool.or_eq_true_iff.1 h.1 with h1 | h1
      · simp [hx] at h1
      · exact h1
    | succ k =>
      rw [List.getElem?_cons_succ] at hk
      have := hasRules_spec h.2 k r hk hx
      rw [Nat.add_assoc, Nat.add_comm 1 k] at this
      exact this

theorem checkStates_spec : ∀ {L : List State} {s0 : Nat}, checkStates G F S s0 L = true →
    ∀ k st, L[k]? = some st → checkState G F S (s0 + k) st = true
  | [], _, _, k, st, hk => by simp at hk
  | st0 :: L, s0, h, k, st, hk => by
    simp only [checkStates, Bool.and_eq_true] at h
    cases k with
    | zero =>
      simp only [List.getElem?_cons_zero, Option.some.injEq] at hk
      subst hk
      exact h.1
    | succ k =>
      rw [List.getElem?_cons_succ] at hk
      have := checkStates_spec h.2 k st hk
      rw [Nat.add_assoc, Nat.add_comm 1 k] at this
      exact this

theorem checkBecause_spec : ∀ {L seen : List Item}, checkBecause G seen L = true → ∀ k i r, L[k]? = some i → i.d = 0 →
    i.p ≠ 0 → G[i.p]? = some r → ∃ j ∈ seen ++ L.take k, ∃ r', G[j.p]? = some r' ∧ r'.rhs[j.d]? = some (.n r.lhs)
  | [], _, _, k, i, r, hk, _, _, _ => by simp at hk
  | i0 :: L, seen, h, k, i, r, hk, hd, hp, hr => by
    simp only [checkBecause, Bool.and_eq_true] at h
    cases k with
    | zero =>
      simp only [List.getElem?_cons_zero, Option.some.injEq] at hk
      subst hk
      have h1 := h.1
      simp only [hd, bne_self_eq_false, Bool.false_or, hr, Bool.or_eq_true, beq_iff_eq, hp, false_or, List.any_eq_true] at h1
      obtain ⟨j, hj, hjr⟩ := h1
      split at hjr
      · cases hjr
      · rename_i r' hr'
        exact ⟨j, by simpa using hj, r', hr', by simpa using hjr⟩
    | succ k =>
      rw [List.getElem?_cons_succ] at hk
      obtain ⟨j, hj, h3⟩ := checkBecause_spec h.2 k i r hk hd hp hr
      exact ⟨j, by simpa using hj, h3⟩

/-- the state of an item -/
theorem item_state {s : Nat} {i : Item} (h : i ∈ itemsOf S s) : ∃ st, S[s]? = some st ∧ i ∈ st.items := by
  unfold itemsOf at h
  split at h
  · rename_i st hst; exact ⟨st, hst, h⟩
  · simp at h

theorem itemsOf_eq {s : Nat} {st : State} (h : S[s]? = some st) : itemsOf S s = st.items := by
  simp only [itemsOf, h]

theorem nextsOf_eq {s : Nat} {st : State} (h : S[s]? = some st) : nextsOf S s = st.next := by
  simp only [nextsOf, h]

theorem lookup_mem {l : List (Sym × Nat)} {X : Sym} {s : Nat} (h : l.lookup X = some s) : (X, s) ∈ l := by
  induction l with
  | nil => simp at h
  | cons a l ih =>
    obtain ⟨Y, t⟩ := a
    simp only [List.lookup_cons] at h
    split at h
    · rename_i e
      have : X = Y := by simpa using e
      subst this
      injection h with h
      subst h
      exact .head _
    · exact .tail _ (ih h)

/-- what the check says about one item -/
theorem checkItem_spec {st : State} {i : Item} (h : checkItem G F S st i = true) :
    ∃ r, G[i.p]? = some r ∧ i.d ≤ r.rhs.length ∧
      (r.rhs.drop i.d = [] → (i.p = 0 → i.la = 1) ∧
        ∀ j ∈ st.items, complete? G j = true → j.p = i.p ∨ j.la &&& i.la = 0) ∧
      ∀ X rest, r.rhs.drop i.d = X :: rest →
        (∃ s', st.next.lookup X = some s' ∧ s' ≠ 0 ∧ hasItem (itemsOf S s') i.p (i.d + 1) i.la = true) ∧
        (∀ a, X = .t a → ∀ j ∈ st.items, complete? G j = true → j.la.testBit (a + 1) = false) ∧
        ∀ x, X = .n x → hasRules st.items x (match rest with | [] => i.la | Y :: _ => firstOf F Y) G 0 = true := by
  unfold checkItem at h
  split at h
  · cases h
  rename_i r hr
  refine ⟨r, hr, ?_⟩
  split at h
  · rename_i hdrop
    simp only [Bool.and_eq_true, beq_iff_eq, List.all_eq_true, Bool.or_eq_true, Bool.not_eq_true', bne_iff_ne] at h
    obtain ⟨⟨hd, h0⟩, hall⟩ := h
    refine ⟨by omega, fun _ => ⟨?_, ?_⟩, (fun X rest e => by rw [hdrop] at e; cases e)⟩
    · intro hp
      rcases h0 with h0 | h0
      · exact absurd hp h0
      · exact h0
    · intro j hj hc
      rcases hall j hj with (h1 | h1) | h1
      · rw [hc] at h1; cases h1
      · exact .inl h1
      · exact .inr h1
  · rename_i Y rest' hdrop
    rw [Bool.and_eq_true] at h
    obtain ⟨h1, h2⟩ := h
    have hlt : i.d ≤ r.rhs.length := by
      rcases Nat.lt_or_ge r.rhs.length i.d with hgt | hle
      · rw [List.drop_eq_nil_of_le (by omega)] at hdrop; cases hdrop
      · exact hle
    refine ⟨hlt, (fun e => by rw [hdrop] at e; cases e), fun X rest e => ?_⟩
    rw [hdrop] at e
    injection e with e1 e2
    subst e1 e2
    refine ⟨?_, ?_, ?_⟩
    · split at h1
      · rename_i s' hs'
        simp only [Bool.and_eq_true, bne_iff_ne] at h1
        exact ⟨s', hs', h1.1, h1.2⟩
      · cases h1
    · rintro a rfl j hj hc
      simp only [List.all_eq_true, Bool.or_eq_true, Bool.not_eq_true'] at h2
      rcases h2 j hj with h2 | h2
      · rw [hc] at h2; cases h2
      · exact h2
    · rintro x rfl
      exact h2

theorem first_spec (hF : checkFirst G F = true) {α : List Sym} {w : List Nat} (h : Der G α w) :
    ∀ X rest a w', α = X :: rest → w = a :: w' → (firstOf F X).testBit (a + 1) = true := by
  have hne : ∀ r ∈ G, ∃ X rest, r.rhs = X :: rest ∧ sub (firstOf F X) (F[r.lhs]?.getD 0) = true := by
    intro r hr
    have := List.all_eq_true.1 hF r hr
    split at this
    · cases this
    · rename_i X rest e
      exact ⟨X, rest, e, this⟩
  induction h with
  | nil => intro X rest a w' e; cases e
  | t _ _ =>
    rintro X rest a w' e1 e2
    injection e1 with e1; injection e2 with e2
    subst e1 e2
    simp [firstOf, Nat.testBit_shiftLeft]
  | @n r α u w hr hu _ ih _ =>
    rintro X rest a w' e1 e2
    injection e1 with e1
    subst e1
    obtain ⟨Y, rest', hY, hs⟩ := hne r hr
    have hu0 : u ≠ [] := hu.ne_nil (fun r hr => by obtain ⟨X, rest, e, _⟩ := hne r hr; rw [e]; simp) (by rw [hY]; simp)
    cases u with
    | nil => exact absurd rfl hu0
    | cons b u =>
      injection e2 with e2
      subst e2
      exact sub_bit hs (ih Y rest' b u hY rfl)

/-- tables that pass the check are valid -/
theorem valid_of_check {P : Nat} {rank : Nat → Nat} {R : Nat} (hG : Tidy G P rank R) (hF : checkFirst G F = true)
    (hstart : checkStart S = true) (hS : checkStates G F S 0 S = true) : Valid G (tablesOf G S) (itemSets S) := by
  have state : ∀ {s : Nat} {st : State}, S[s]? = some st → checkState G F S s st = true := by
    intro s st h
    have := checkStates_spec hS s st h
    rwa [Nat.zero_add] at this
  have item : ∀ {s : Nat} {i : Item}, i ∈ itemsOf S s → ∃ st, S[s]? = some st ∧ i ∈ st.items ∧ checkItem G F S st i = true := by
    intro s i hi
    obtain ⟨st, hst, hi'⟩ := item_state hi
    have := state hst
    simp only [checkState, Bool.and_eq_true, List.all_eq_true] at this
    exact ⟨st, hst, hi', this.1.1.1 i hi'⟩
  have trans : ∀ {s : Nat} {st : State} {X : Sym} {s' : Nat}, S[s]? = some st → st.next.lookup X = some s' → checkNext G S st X s' = true := by
    intro s st X s' hst hl
    have := state hst
    simp only [checkState, Bool.and_eq_true, List.all_eq_true] at this
    exact this.1.2 (X, s') (lookup_mem hl)
  -- the transition of an item
  have move : ∀ {s : Nat} {i : Item} {r : Rule} {X : Sym}, i ∈ itemsOf S s → G[i.p]? = some r → r.rhs[i.d]? = some X →
      ∃ st s', S[s]? = some st ∧ st.next.lookup X = some s' ∧ s' ≠ 0 ∧
        hasItem (itemsOf S s') i.p (i.d + 1) i.la = true ∧ (tablesOf G S).next s X = some s' := by
    intro s i r X hi hr hX
    obtain ⟨st, hst, hi', hc⟩ := item hi
    obtain ⟨r', hr', _, _, h⟩ := checkItem_spec hc
    rw [hr] at hr'
    obtain rfl := Option.some.inj hr'
    have hdrop : r.rhs.drop i.d = X :: r.rhs.drop (i.d + 1) := by
      obtain ⟨hd, rfl⟩ := List.getElem?_eq_some_iff.1 hX
      exact List.drop_eq_getElem_cons hd
    obtain ⟨⟨s', hl, h0, hi2⟩, ht, _⟩ := h X _ hdrop
    refine ⟨st, s', hst, hl, h0, hi2, ?_⟩
    cases X with
    | n x => simp only [Tables.next, tablesOf, nextsOf_eq hst, hl, Option.getD_some]
    | t a =>
      have hnone : (itemsOf S s).find? (fun i => complete? G i && i.la.testBit (bit (some a))) = none := by
        rw [List.find?_eq_none]
        intro j hj
        rw [itemsOf_eq hst] at hj
        simp only [bit, Bool.and_eq_true, not_and, Bool.not_eq_true]
        exact fun hc => ht a rfl j hj hc
      simp only [Tables.next, tablesOf, hnone, nextsOf_eq hst, hl]
  have nextLookup : ∀ {s : Nat} {st : State} {i : Item} {r : Rule} {X : Sym} {s' : Nat}, i ∈ itemsOf S s → G[i.p]? = some r → r.rhs[i.d]? = some X → S[s]? = some st →
      (tablesOf G S).next s X = some s' → st.next.lookup X = some s' := by
    intro s st i r X s' hi hr hX hst hn
    obtain ⟨st', s2, hst', hl, _, _, hn'⟩ := move hi hr hX
    rw [hst] at hst'
    obtain rfl := Option.some.inj hst'
    rw [hn] at hn'
    obtain rfl := Option.some.inj hn'
    exact hl
  have completeIff : ∀ {i : Item} {r : Rule}, G[i.p]? = some r → (complete? G i = true ↔ i.d = r.rhs.length) := by
    intro i r hr
    simp only [complete?, hr, beq_iff_eq]
  obtain ⟨S', hS0, hSno, hSonly⟩ := hG.start
  constructor
  case start =>
    obtain ⟨j, hj, hp, hd, hb⟩ := hasItem_spec hstart
    exact ⟨⟨j, hj, hp, hd⟩, j, hj, hp, hd, hb 0 rfl⟩
  case closure =>
    rintro s p d r x q r' ⟨i, hi, rfl, rfl⟩ hr hX hr' rfl
    obtain ⟨st, hst, hi', hc⟩ := item hi
    obtain ⟨r2, hr2, _, _, h⟩ := checkItem_spec hc
    rw [hr] at hr2
    obtain rfl := Option.some.inj hr2
    have hdrop : r.rhs.drop i.d = .n r'.lhs :: r.rhs.drop (i.d + 1) := by
      obtain ⟨hd, e⟩ := List.getElem?_eq_some_iff.1 hX
      rw [← e]
      exact List.drop_eq_getElem_cons hd
    obtain ⟨_, _, hrules⟩ := h _ _ hdrop
    have hit := hasRules_spec (hrules _ rfl) q r' hr' rfl
    rw [Nat.zero_add] at hit
    refine ⟨?_, ?_, ?_⟩
    · obtain ⟨j, hj, hp, hd, _⟩ := hasItem_spec hit
      exact ⟨j, by rw [itemsOf_eq hst]; exact hj, hp, hd⟩
    · rintro hnil l ⟨i2, hi2, hp2, hd2, hb⟩
      -- the item with this lookahead need not be `i` itself
      obtain ⟨st2, hst2, hi2', hc2⟩ := item hi2
      rw [hst] at hst2
      obtain rfl := Option.some.inj hst2
      obtain ⟨r2, hr2, _, _, h2⟩ := checkItem_spec hc2
      rw [hp2, hr] at hr2
      obtain rfl := Option.some.inj hr2
      rw [hd2] at h2
      obtain ⟨_, _, hrules2⟩ := h2 _ _ hdrop
      have hit2 := hasRules_spec (hrules2 _ rfl) q r' hr' rfl
      rw [Nat.zero_add, hnil] at hit2
      obtain ⟨j, hj, hp, hd, hb2⟩ := hasItem_spec hit2
      exact ⟨j, by rw [itemsOf_eq hst]; exact hj, hp, hd, hb2 _ hb⟩
    · intro a w hd
      cases hrest : r.rhs.drop (i.d + 1) with
      | nil => rw [hrest] at hd; cases hd
      | cons Y rest =>
        rw [hrest] at hd hit
        obtain ⟨j, hj, hp, hd', hb2⟩ := hasItem_spec hit
        exact ⟨j, by rw [itemsOf_eq hst]; exact hj, hp, hd', hb2 _ (first_spec hF hd Y rest a w rfl rfl)⟩
  case next =>
    rintro s p d r X ⟨i, hi, rfl, rfl⟩ hr hX
    obtain ⟨st, s', hst, hl, _, hit, hn⟩ := move hi hr hX
    refine ⟨s', hn, ?_, ?_⟩
    · obtain ⟨j, hj, hp, hd, _⟩ := hasItem_spec hit
      exact ⟨j, hj, hp, hd⟩
    · rintro l ⟨i2, hi2, hp2, hd2, hb⟩
      obtain ⟨_, s2, _, _, _, hit2, hn2⟩ := move (r := r) (X := X) hi2 (by rw [hp2]; exact hr) (by rw [hd2]; exact hX)
      rw [hn] at hn2
      obtain rfl := Option.some.inj hn2
      obtain ⟨j, hj, hp, hd, hb2⟩ := hasItem_spec hit2
      exact ⟨j, hj, by rw [hp, hp2], by rw [hd, hd2], hb2 _ hb⟩
  case reduce =>
    rintro s p r l - hr ⟨i, hi, rfl, hd, hb⟩
    obtain ⟨st, hst, hi', hc⟩ := item hi
    obtain ⟨r2, hr2, _, hred, _⟩ := checkItem_spec hc
    rw [hr] at hr2
    obtain rfl := Option.some.inj hr2
    obtain ⟨_, hconf⟩ := hred (by rw [hd]; exact List.drop_length)
    have hfound : ((itemsOf S s).find? fun i => complete? G i && i.la.testBit (bit l)).isSome = true := by
      rw [List.find?_isSome]
      exact ⟨i, hi, by rw [(completeIff hr).2 hd, hb]; rfl⟩
    obtain ⟨j, hj⟩ := Option.isSome_iff_exists.1 hfound
    have hjm := List.mem_of_find?_eq_some hj
    have hjp := List.find?_some hj
    rw [Bool.and_eq_true] at hjp
    rw [itemsOf_eq hst] at hjm
    have : j.p = i.p := by
      rcases hconf j hjm hjp.1 with h | h
      · exact h
      · have hz : (j.la &&& i.la).testBit (bit l) = true := by rw [Nat.testBit_and, hjp.2, hb]; rfl
        rw [h] at hz
        simp at hz
    simp only [tablesOf, hj, this]
  case reduceOnly =>
    rintro s l p - ha
    simp only [tablesOf] at ha
    split at ha
    · rename_i i hi
      injection ha with ha
      subst ha
      have hm := List.mem_of_find?_eq_some hi
      have hp := List.find?_some hi
      rw [Bool.and_eq_true] at hp
      obtain ⟨st, hst, hi', hc⟩ := item hm
      obtain ⟨r, hr, _⟩ := checkItem_spec hc
      exact ⟨r, hr, i, hm, rfl, (completeIff hr).1 hp.1⟩
    · split at ha
      · cases ha
      · split at ha <;> cases ha
  case shiftOnly =>
    rintro s l s' ⟨q, e, i0, hi0, _⟩ ha
    simp only [tablesOf] at ha
    split at ha
    · cases ha
    · split at ha
      · cases ha
      · rename_i a _
        split at ha
        · rename_i s2 hl
          injection ha with ha
          subst ha
          obtain ⟨st, hst, _⟩ := item hi0
          rw [nextsOf_eq hst] at hl
          have := trans hst hl
          simp only [checkNext, Bool.and_eq_true, List.any_eq_true] at this
          obtain ⟨⟨i, hi, hr⟩, _⟩ := this
          split at hr
          · cases hr
          · rename_i r hr'
            exact ⟨a, i.p, i.d, r, rfl, ⟨i, by rw [itemsOf_eq hst]; exact hi, rfl, rfl⟩, hr', by simpa using hr⟩
        · cases ha
  case from_ =>
    rintro s p d r X s' q e ⟨i, hi, rfl, rfl⟩ hr hX hn ⟨j, hj, rfl, hje⟩
    obtain ⟨st, hst, _⟩ := item hi
    have hl := nextLookup hi hr hX hst hn
    have := trans hst hl
    simp only [checkNext, Bool.and_eq_true, List.all_eq_true] at this
    have h2 := this.2 j hj
    simp only [Bool.or_eq_true, beq_iff_eq, Bool.and_eq_true, List.any_eq_true] at h2
    rcases h2 with h2 | ⟨⟨i2, hi2, hp2, hd2⟩, h3⟩
    · omega
    · refine ⟨⟨i2, by rw [itemsOf_eq hst]; exact hi2, hp2, by omega⟩, ?_⟩
      split at h3
      · cases h3
      · rename_i r' hr'
        refine ⟨r', hr', ?_⟩
        have : j.d - 1 = e := by omega
        rw [this] at h3
        simpa using h3
  case notBack =>
    rintro s p d r X ⟨i, hi, rfl, rfl⟩ hr hX h0
    obtain ⟨_, s', _, _, hne, _, hn⟩ := move hi hr hX
    rw [hn] at h0
    exact hne (Option.some.inj h0)
  case initial =>
    rintro p d ⟨i, hi, rfl, rfl⟩
    obtain ⟨st, hst, hi', _⟩ := item hi
    have := state hst
    simp only [checkState, Bool.and_eq_true, List.all_eq_true] at this
    have := this.2 i hi'
    simpa using this
  case startOnly =>
    rintro s ⟨i, hi, hp, hd⟩
    obtain ⟨st, hst, hi', _⟩ := item hi
    have := state hst
    simp only [checkState, Bool.and_eq_true, List.all_eq_true] at this
    have := this.2 i hi'
    split at this
    · rename_i h; simpa using h
    · simp [hp, hd] at this
  case because =>
    refine ⟨fun s p d => (itemsOf S s).findIdx fun i => i.p == p && i.d == d, ?_⟩
    rintro s q r' ⟨i, hi, hp, hd⟩ hr'
    cases Nat.decEq q 0 with
    | isTrue h => exact .inl h
    | isFalse hq =>
      right
      -- the first item of this production
      have hfi : (itemsOf S s).findIdx (fun i => i.p == q && i.d == 0) < (itemsOf S s).length :=
        List.findIdx_lt_length_of_exists ⟨i, hi, by simp [hp, hd]⟩
      have hk := List.findIdx_getElem (w := hfi)
      have hget : (itemsOf S s)[(itemsOf S s).findIdx (fun i => i.p == q && i.d == 0)]? = some _ :=
        List.getElem?_eq_getElem hfi
      generalize (itemsOf S s)[(itemsOf S s).findIdx (fun i => i.p == q && i.d == 0)] = i1 at hk hget
      simp only [Bool.and_eq_true, beq_iff_eq] at hk
      obtain ⟨st, hst, _⟩ := item hi
      have hst' := state hst
      simp only [checkState, Bool.and_eq_true] at hst'
      generalize hkk : (itemsOf S s).findIdx (fun i => i.p == q && i.d == 0) = k at hget
      rw [itemsOf_eq hst] at hget
      obtain ⟨j, hj, r2, hr2, hX⟩ := checkBecause_spec hst'.1.1.2 k i1 r' hget hk.2 (by rw [hk.1]; exact hq)
        (by rw [hk.1]; exact hr')
      rw [List.nil_append] at hj
      refine ⟨j.p, j.d, r2, ⟨j, by rw [itemsOf_eq hst]; exact List.mem_of_mem_take hj, rfl, rfl⟩, hr2, hX, ?_⟩
      dsimp only
      rw [hkk, itemsOf_eq hst]
      obtain ⟨n, hn⟩ := List.getElem?_of_mem hj
      have hnk : n < k := by
        have := (List.getElem?_eq_some_iff.1 hn).1
        rw [List.length_take] at this
        omega
      rw [List.getElem?_take_of_lt hnk] at hn
      obtain ⟨hnl, hne⟩ := List.getElem?_eq_some_iff.1 hn
      refine Nat.lt_of_le_of_lt ?_ hnk
      rcases Nat.lt_or_ge n (st.items.findIdx fun i => i.p == j.p && i.d == j.d) with hlt | hle
      · have := List.not_of_lt_findIdx hlt
        rw [hne] at this
        simp at this
      · exact hle
  case rule =>
    rintro s p d ⟨i, hi, rfl, rfl⟩
    obtain ⟨st, hst, hi', hc⟩ := item hi
    obtain ⟨r, hr, hd, _⟩ := checkItem_spec hc
    exact ⟨r, hr, hd⟩
  case final =>
    refine ⟨fun x => x = S', ?_, ?_, ?_⟩
    · intro r hr
      rw [hS0] at hr
      rw [← Option.some.inj hr]
    · rintro s a p r - hr hlhs ha
      have hp := hSonly p r hr hlhs
      subst hp
      simp only [tablesOf] at ha
      split at ha
      · rename_i i hi
        injection ha with ha
        have hm := List.mem_of_find?_eq_some hi
        have hq := List.find?_some hi
        rw [Bool.and_eq_true] at hq
        obtain ⟨st, hst, hi', hc⟩ := item hm
        obtain ⟨r2, hr2, _, hred, _⟩ := checkItem_spec hc
        obtain ⟨h1, _⟩ := hred (by rw [(completeIff hr2).1 hq.1]; exact List.drop_length)
        have hla := h1 ha
        have hb := hq.2
        rw [hla] at hb
        simp only [bit] at hb
        have : Nat.testBit 1 (a + 1) = false := by
          rw [Nat.testBit_succ]; simp
        rw [this] at hb
        cases hb
      · split at ha <;> cases ha
    · rintro s p d r x - hr hX rfl
      exact absurd (List.mem_of_getElem? hX) (hSno r (getElem?_mem hr))

theorem Der.append' {G α β u v} (h : Der G α u) (h2 : Der G β v) : Der G (α ++ β) (u ++ v) := by
  induction h with
  | nil => exact h2
  | t _ ih => exact .t ih
  | n hr hd _ _ ih => rw [List.append_assoc]; exact .n hr hd ih

theorem der_of_syms {G : List Rule} : ∀ α : List Sym, (∀ x, Sym.n x ∈ α → ∃ w, Der G [.n x] w) → ∃ w, Der G α w
  | [], _ => ⟨_, .nil⟩
  | .t a :: α, h => by
    obtain ⟨w, hw⟩ := der_of_syms α (fun x hx => h x (List.mem_cons_of_mem _ hx))
    exact ⟨_, .t hw⟩
  | .n x :: α, h => by
    obtain ⟨u, hu⟩ := h x List.mem_cons_self
    obtain ⟨w, hw⟩ := der_of_syms α (fun x hx => h x (List.mem_cons_of_mem _ hx))
    exact ⟨_, Der.append' hu hw⟩

theorem productive_spec {G : List Rule} : ∀ (ps acc : List Nat), (∀ x ∈ acc, ∃ w, Der G [.n x] w) →
    ∀ x ∈ productive G acc ps, ∃ w, Der G [.n x] w
  | [], _, h => h
  | p :: ps, acc, h => by
    unfold productive
    split
    · rename_i r hr
      split
      · rename_i hall
        refine productive_spec ps _ ?_
        intro x hx
        rcases List.mem_cons.1 hx with rfl | hx
        · obtain ⟨w, hw⟩ := der_of_syms r.rhs (fun y hy => h y (by
            have := List.all_eq_true.1 hall _ hy
            simpa using this))
          exact ⟨_, .n (getElem?_mem hr) hw .nil⟩
        · exact h x hx
      · exact productive_spec ps _ h
    · exact productive_spec ps _ h

theorem tidy_of_check {G : List Rule} {P : Nat} {order ranks : List Nat} {R : Nat}
    (h : checkTidy G P order ranks R = true) : Tidy G P (fun x => ranks[x]?.getD 0) R := by
  unfold checkTidy at h
  split at h
  · cases h
  · rename_i S' rhs rest
    simp only [Bool.and_eq_true] at h
    obtain ⟨⟨⟨⟨⟨⟨h1, h2⟩, h3⟩, h4⟩, h5⟩, h6⟩, h7⟩ := h
    have h1 := eq_of_beq h1
    subst h1
    refine ⟨⟨S', rfl, ?_, ?_⟩, ?_, ?_, ?_, ?_, ?_⟩
    · intro r hr hm
      have := List.all_eq_true.1 h2 r hr
      simp at this
      exact this hm
    · intro p r hp hl
      cases p with
      | zero => rfl
      | succ p =>
        have := List.all_eq_true.1 h3 r (getElem?_mem hp)
        simp [hl] at this
    · intro r hr he
      have := List.all_eq_true.1 h4 r hr
      simp [he] at this
    · intro r hr x hx
      have := List.all_eq_true.1 (List.all_eq_true.1 h5 r hr) _ hx
      exact productive_spec order [] (by simp) x (by simpa using this)
    · intro r hr a he
      have := List.all_eq_true.1 h6 r hr
      simp only [he] at this
      simpa using this
    · intro r hr x he
      have := List.all_eq_true.1 h6 r hr
      simp only [he] at this
      simpa using this
    · intro x
      show ranks[x]?.getD 0 ≤ R
      cases hx : ranks[x]? with
      | none => simp
      | some k => simpa using List.all_eq_true.1 h7 k (List.mem_of_getElem? hx)

end Verif.LR
