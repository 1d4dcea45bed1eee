import Verif.Model.TreeText
import Verif.Proofs.TreeText
/-
The derived comparison of syntax trees is a total order that agrees with equality.
-/
namespace Verif

theorem then_eq_iff {a b : Ordering} : a.then b = .eq ↔ a = .eq ∧ b = .eq := by cases a <;> simp [Ordering.then]
theorem then_lt_iff {a b : Ordering} : a.then b = .lt ↔ a = .lt ∨ (a = .eq ∧ b = .lt) := by cases a <;> simp [Ordering.then]
theorem swap_then' {a b : Ordering} : (a.then b).swap = a.swap.then b.swap := by cases a <;> rfl

theorem cmpNat_eq {a b : Nat} : compare a b = .eq ↔ a = b := Nat.compare_eq_eq
theorem cmpNat_lt {a b : Nat} : compare a b = .lt ↔ a < b := Nat.compare_eq_lt
theorem cmpNat_swap (a b : Nat) : (compare a b).swap = compare b a := Nat.compare_swap a b

/-! ### Strings and positions -/

theorem cmpStr_eq : ∀ {s t : Str}, cmpStr s t = .eq ↔ s = t
  | [], [] => by simp [cmpStr]
  | [], _ :: _ => by simp [cmpStr]
  | _ :: _, [] => by simp [cmpStr]
  | a :: s, b :: t => by
    rw [cmpStr, then_eq_iff, cmpStr_eq, cmpNat_eq, List.cons.injEq]
    constructor
    · rintro ⟨h, h'⟩
      exact ⟨Char.toNat_inj.1 h, h'⟩
    · rintro ⟨h, h'⟩
      exact ⟨by rw [h], h'⟩

theorem cmpStr_swap : ∀ s t : Str, (cmpStr s t).swap = cmpStr t s
  | [], [] => rfl
  | [], _ :: _ => rfl
  | _ :: _, [] => rfl
  | a :: s, b :: t => by rw [cmpStr, cmpStr, swap_then', cmpStr_swap, cmpNat_swap]

theorem cmpStr_trans : ∀ {s t u : Str}, cmpStr s t = .lt → cmpStr t u = .lt → cmpStr s u = .lt
  | _, [], [], h, h' => by simp [cmpStr] at h'
  | [], [], _ :: _, h, _ => by simp [cmpStr] at h
  | _ :: _, [], _ :: _, h, _ => by simp [cmpStr] at h
  | [], _ :: _, [], _, h => by simp [cmpStr] at h
  | [], _ :: _, _ :: _, _, _ => by simp [cmpStr]
  | _ :: _, _ :: _, [], _, h => by simp [cmpStr] at h
  | a :: s, b :: t, c :: u, h, h' => by
    rw [cmpStr, then_lt_iff, cmpNat_lt, cmpNat_eq] at h h' ⊢
    rcases h with h | ⟨h, h1⟩ <;> rcases h' with h' | ⟨h', h1'⟩
    · exact .inl (by omega)
    · exact .inl (by omega)
    · exact .inl (by omega)
    · exact .inr ⟨by omega, cmpStr_trans h1 h1'⟩

theorem Pos.cmp_eq {p q : Pos} : p.cmp q = .eq ↔ p = q := by
  cases p; cases q
  simp [Pos.cmp, then_eq_iff, cmpNat_eq, and_assoc]

theorem Pos.cmp_swap (p q : Pos) : (p.cmp q).swap = q.cmp p := by
  simp only [Pos.cmp, swap_then', cmpNat_swap]

theorem Pos.cmp_trans {p q r : Pos} (h : p.cmp q = .lt) (h' : q.cmp r = .lt) : p.cmp r = .lt := by
  simp only [Pos.cmp, then_lt_iff, then_eq_iff, cmpNat_lt, cmpNat_eq] at *
  omega

/-! ### Variants -/

theorem variantPaths_nodup : variantPaths.Nodup := by decide +kernel

/-- the declarations give no two variants of a type the same path -/
theorem variant_of_path : ∀ t ∈ TName.all, (t.variants.map (·.path)).Nodup := by decide +kernel

theorem path_mem {t : TName} {c : Variant} (h : c ∈ t.variants) : c.path ∈ variantPaths := by
  simp only [variantPaths, List.mem_append, List.mem_flatMap, List.mem_map]
  exact .inr ⟨t, t.mem_all, c, h, rfl⟩

theorem idxOf_inj {l : List Str} {a b : Str} (ha : a ∈ l) (h : l.idxOf a = l.idxOf b) : a = b := by
  have h1 := List.idxOf_lt_length_of_mem ha
  have h2 : l[l.idxOf a] = a := List.getElem_idxOf h1
  have h3 : l.idxOf b < l.length := by rw [← h]; exact h1
  have h4 : l[l.idxOf b] = b := List.getElem_idxOf h3
  rw [← h2, ← h4]
  simp only [h]

theorem rank_eq {t : TName} {c d : Variant} (hc : c ∈ t.variants) (hd : d ∈ t.variants)
    (h : variantPaths.idxOf c.path = variantPaths.idxOf d.path) : c = d :=
  inj_of_nodup (variant_of_path t t.mem_all) hc hd (idxOf_inj (path_mem hc) h)

/-! ### Trees -/

mutual
theorem cmp_swap : ∀ v w : RV, (v.cmp w).swap = w.cmp v
  | .str s, w => by cases w <;> simp [RV.cmp, cmpStr_swap]
  | .pos p, w => by cases w <;> simp [RV.cmp, Pos.cmp_swap]
  | .vec l, w => by cases w <;> simp [RV.cmp, cmpList_swap l]
  | .node p fs vs, w => by cases w <;> simp [RV.cmp, swap_then', cmpNat_swap, cmpList_swap vs]
theorem cmpList_swap : ∀ l m : List RV, (RV.cmpList l m).swap = RV.cmpList m l
  | [], [] => rfl
  | [], _ :: _ => rfl
  | _ :: _, [] => rfl
  | v :: l, w :: m => by rw [RV.cmpList, RV.cmpList, swap_then', cmp_swap v w, cmpList_swap l m]
end

mutual
theorem cmp_refl : ∀ v : RV, v.cmp v = .eq
  | .str s => by rw [RV.cmp, cmpStr_eq]
  | .pos p => by rw [RV.cmp, Pos.cmp_eq]
  | .vec l => by rw [RV.cmp, cmpList_refl l]
  | .node p fs vs => by rw [RV.cmp, cmpList_refl vs, then_eq_iff, cmpNat_eq]; exact ⟨rfl, rfl⟩
theorem cmpList_refl : ∀ l : List RV, RV.cmpList l l = .eq
  | [] => rfl
  | v :: l => by rw [RV.cmpList, cmp_refl v, cmpList_refl l]; rfl
end

theorem cmp_eq {v : RV} {t : RT} (hv : HasType v t) : ∀ {w : RV}, HasType w t → v.cmp w = .eq → v = w := by
  induction hv using HasType.rec
    (motive_2 := fun l ts _ => ∀ {m : List RV}, HasTypes m ts → RV.cmpList l m = .eq → l = m)
    (motive_3 := fun l t _ => ∀ {m : List RV}, HasTypeAll m t → RV.cmpList l m = .eq → l = m) with
  | string a =>
    intro w hw h
    cases hw
    rw [RV.cmp, cmpStr_eq] at h
    rw [h]
  | located s e hv ih =>
    intro w hw h
    cases hw with
    | located s' e' hw =>
      simp only [RV.cmp, RV.cmpList, then_eq_iff, Pos.cmp_eq] at h
      rw [ih hw h.2.1, h.2.2.1, h.2.2.2.1]
  | vec hv ih =>
    intro w hw h
    cases hw with
    | vec hw =>
      rw [RV.cmp] at h
      rw [ih hw h]
  | none t =>
    intro w hw h
    generalize hr : RT.option t = u at hw
    cases hw with
    | none => rfl
    | some hw =>
      simp only [RV.none, RV.some, RV.cmp, RV.cmpList, then_eq_iff] at h
      exact absurd h.2 (by decide)
    | _ => cases hr
  | some hv ih =>
    intro w hw h
    cases hw with
    | none =>
      simp only [RV.none, RV.some, RV.cmp, RV.cmpList, then_eq_iff] at h
      exact absurd h.2 (by decide)
    | some hw =>
      simp only [RV.some, RV.cmp, RV.cmpList, then_eq_iff] at h
      rw [ih hw h.2.1]
  | node hc hv ih =>
    rename_i t c vs
    intro w hw h
    generalize hr : RT.named t = u at hw
    cases hw with
    | node hd hw =>
      cases hr
      rw [RV.cmp, then_eq_iff, cmpNat_eq] at h
      obtain rfl := rank_eq hc hd h.1
      rw [ih hw h.2]
    | _ => cases hr
  | nil =>
    rename_i hm h
    cases hm
    rfl
  | cons hv hl ih1 ih2 =>
    rename_i hm h
    cases hm with
    | cons h1 h2 =>
      rw [RV.cmpList, then_eq_iff] at h
      rw [ih1 h1 h.1, ih2 h2 h.2]
  | empty t =>
    rename_i hm h
    cases hm with
    | empty => rfl
    | more h1 h2 => cases h
  | more hv hl ih1 ih2 =>
    rename_i hm h
    cases hm with
    | empty => cases h
    | more h1 h2 =>
      rw [RV.cmpList, then_eq_iff] at h
      rw [ih1 h1 h.1, ih2 h2 h.2]

/-- transitivity, for components -/
theorem then_trans {a b c a' b' c' : Ordering}
    (h1 : a = .lt → b = .lt → c = .lt) (h2 : a = .eq → b = c) (h3 : b = .eq → a = c)
    (h' : a' = .lt → b' = .lt → c' = .lt) (hab : a.then a' = .lt) (hbc : b.then b' = .lt) : c.then c' = .lt := by
  rw [then_lt_iff] at *
  rcases hab with hab | ⟨hab, hab'⟩ <;> rcases hbc with hbc | ⟨hbc, hbc'⟩
  · exact .inl (h1 hab hbc)
  · exact .inl (by rw [← h3 hbc]; exact hab)
  · exact .inl (by rw [← h2 hab]; exact hbc)
  · exact .inr ⟨by rw [← h2 hab]; exact hbc, h' hab' hbc'⟩

theorem cmp_trans {u : RV} {t : RT} (hu : HasType u t) : ∀ {v w : RV}, HasType v t → HasType w t →
    u.cmp v = .lt → v.cmp w = .lt → u.cmp w = .lt := by
  induction hu using HasType.rec
    (motive_2 := fun l ts _ => ∀ {m n : List RV}, HasTypes m ts → HasTypes n ts →
      RV.cmpList l m = .lt → RV.cmpList m n = .lt → RV.cmpList l n = .lt)
    (motive_3 := fun l t _ => ∀ {m n : List RV}, HasTypeAll m t → HasTypeAll n t →
      RV.cmpList l m = .lt → RV.cmpList m n = .lt → RV.cmpList l n = .lt) with
  | string a =>
    intro v w hv hw h h'
    cases hv; cases hw
    exact cmpStr_trans h h'
  | located s e hu ih =>
    intro v w hv hw h h'
    cases hv with
    | located s1 e1 hv =>
      cases hw with
      | located s2 e2 hw =>
        simp only [RV.cmp, RV.cmpList] at h h' ⊢
        rw [show ∀ n : Nat, compare n n = .eq from fun n => cmpNat_eq.2 rfl] at h h' ⊢
        refine then_trans (a := .eq) (b := .eq) (by simp) (by simp) (by simp) ?_ h h'
        refine then_trans (ih hv hw) (fun e => ?_) (fun e => ?_) ?_
        · rw [cmp_eq hu hv e]
        · rw [cmp_eq hv hw e]
        refine then_trans Pos.cmp_trans (fun e => ?_) (fun e => ?_) ?_
        · rw [Pos.cmp_eq.1 e]
        · rw [Pos.cmp_eq.1 e]
        refine then_trans Pos.cmp_trans (fun e => ?_) (fun e => ?_) ?_
        · rw [Pos.cmp_eq.1 e]
        · rw [Pos.cmp_eq.1 e]
        simp
  | vec hu ih =>
    intro v w hv hw h h'
    cases hv with
    | vec hv =>
      cases hw with
      | vec hw =>
        rw [RV.cmp] at *
        exact ih hv hw h h'
  | none t =>
    intro v w hv hw h h'
    cases hw with
    | none => rw [← cmp_swap, h'] at h; cases h
    | some => rfl
  | some hu ih =>
    intro v w hv hw h h'
    cases hv with
    | none => cases h
    | some hv =>
      cases hw with
      | none => cases h'
      | some hw =>
        simp only [RV.some, RV.cmp, RV.cmpList] at h h' ⊢
        rw [show ∀ n : Nat, compare n n = .eq from fun n => cmpNat_eq.2 rfl] at h h' ⊢
        refine then_trans (a := .eq) (b := .eq) (by simp) (by simp) (by simp) ?_ h h'
        refine then_trans (ih hv hw) (fun e => ?_) (fun e => ?_) (by simp)
        · rw [cmp_eq hu hv e]
        · rw [cmp_eq hv hw e]
  | node hc hu ih =>
    rename_i t c us
    intro v w hv hw h h'
    generalize hr : RT.named t = u at hv hw
    cases hv with
    | node hd hv =>
      cases hr
      rename_i d vs
      generalize hr : RT.named t = u at hw
      cases hw with
      | node he hw =>
        cases hr
        rename_i e ws
        rw [RV.cmp] at *
        rw [then_lt_iff, cmpNat_lt, cmpNat_eq] at *
        rcases h with h | ⟨h, h1⟩ <;> rcases h' with h' | ⟨h', h1'⟩
        · exact .inl (by omega)
        · exact .inl (by omega)
        · exact .inl (by omega)
        · obtain rfl := rank_eq hc hd h
          obtain rfl := rank_eq hc he h'
          exact .inr ⟨rfl, ih hv hw h1 h1'⟩
      | _ => cases hr
    | _ => cases hr
  | nil =>
    rename_i hm hn h h'
    cases hm; cases h
  | cons hu hl ih1 ih2 =>
    rename_i m n hm hn h h'
    cases hm with
    | cons h1 h2 =>
      cases hn with
      | cons h3 h4 =>
        rw [RV.cmpList] at *
        refine then_trans (ih1 h1 h3) (fun e => ?_) (fun e => ?_) (ih2 h2 h4) h h'
        · rw [cmp_eq hu h1 e]
        · rw [cmp_eq h1 h3 e]
  | empty t =>
    rename_i m n hm hn h h'
    cases n with
    | nil => cases m <;> simp [RV.cmpList] at h h'
    | cons => rfl
  | more hu hl ih1 ih2 =>
    rename_i m n hm hn h h'
    cases hm with
    | empty => cases h
    | more h1 h2 =>
      cases hn with
      | empty => cases h'
      | more h3 h4 =>
        rw [RV.cmpList] at *
        refine then_trans (ih1 h1 h3) (fun e => ?_) (fun e => ?_) (ih2 h2 h4) h h'
        · rw [cmp_eq hu h1 e]
        · rw [cmp_eq h1 h3 e]

end Verif
