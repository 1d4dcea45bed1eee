import Verif.Spec.Utf8
import Verif.Model.TreeText
import Verif.Proofs.LexBasic
/- Characters and bytes. -/
namespace Verif

theorem utf8s_nil : utf8s [] = [] := rfl

theorem utf8s_cons (c : Char) (s : Str) : utf8s (c :: s) = utf8 c ++ utf8s s := by
  simp [utf8s]

theorem utf8s_append (s t : Str) : utf8s (s ++ t) = utf8s s ++ utf8s t := by
  simp [utf8s]

theorem scalar (c : Char) : c.toNat < 0xD800 ∨ (0xDFFF < c.toNat ∧ c.toNat < 0x110000) := c.valid

theorem utf8_length (c : Char) : (utf8 c).length = c.utf8Size := by
  have e : c.toNat = c.val.toNat := rfl
  unfold utf8 Char.utf8Size
  simp only [e, UInt32.le_iff_toNat_le, show (UInt32.ofNatLT 127 (of_decide_eq_true rfl)).toNat = 127 from rfl,
    show (UInt32.ofNatLT 2047 (of_decide_eq_true rfl)).toNat = 2047 from rfl,
    show (UInt32.ofNatLT 65535 (of_decide_eq_true rfl)).toNat = 65535 from rfl]
  generalize c.val.toNat = n
  by_cases h1 : n < 128
  · rw [if_pos h1, if_pos (show n ≤ 127 by omega)]; rfl
  · rw [if_neg h1, if_neg (show ¬ n ≤ 127 by omega)]
    by_cases h2 : n < 2048
    · rw [if_pos h2, if_pos (show n ≤ 2047 by omega)]; rfl
    · rw [if_neg h2, if_neg (show ¬ n ≤ 2047 by omega)]
      by_cases h3 : n < 65536
      · rw [if_pos h3, if_pos (show n ≤ 65535 by omega)]; rfl
      · rw [if_neg h3, if_neg (show ¬ n ≤ 65535 by omega)]; rfl

theorem utf8s_length (s : Str) : (utf8s s).length = bytes s := by
  induction s with
  | nil => rfl
  | cons c s ih => rw [utf8s_cons, List.length_append, utf8_length, ih, bytes_cons]

/-- the encoding of Lean's library -/
theorem utf8_lean (c : Char) : (String.utf8EncodeChar c).map UInt8.toNat = utf8 c := by
  have h := scalar c
  have e : c.toNat = c.val.toNat := rfl
  unfold utf8 String.utf8EncodeChar
  simp only [e] at h ⊢
  generalize c.val.toNat = n at h
  by_cases h1 : n < 128
  · rw [if_pos h1, if_pos (show n ≤ 127 by omega)]
    simp only [List.map_cons, List.map_nil, UInt8.toNat_ofNat', List.cons.injEq, and_true]
    omega
  · rw [if_neg h1, if_neg (show ¬ n ≤ 127 by omega)]
    by_cases h2 : n < 2048
    · rw [if_pos h2, if_pos (show n ≤ 2047 by omega)]
      simp only [List.map_cons, List.map_nil, UInt8.toNat_ofNat', List.cons.injEq, and_true]
      omega
    · rw [if_neg h2, if_neg (show ¬ n ≤ 2047 by omega)]
      by_cases h3 : n < 65536
      · rw [if_pos h3, if_pos (show n ≤ 65535 by omega)]
        simp only [List.map_cons, List.map_nil, UInt8.toNat_ofNat', List.cons.injEq, and_true]
        omega
      · rw [if_neg h3, if_neg (show ¬ n ≤ 65535 by omega)]
        simp only [List.map_cons, List.map_nil, UInt8.toNat_ofNat', List.cons.injEq, and_true]
        omega

theorem utf8s_lean (s : Str) : (s.flatMap String.utf8EncodeChar).map UInt8.toNat = utf8s s := by
  induction s with
  | nil => rfl
  | cons c s ih => rw [List.flatMap_cons, List.map_append, ih, utf8_lean, utf8s_cons]

/-! ### Well-formed sequences -/

theorem utf8_wellFormed (c : Char) {bs : List Nat} (h : Utf8Ok bs) : Utf8Ok (utf8 c ++ bs) := by
  have hv := scalar c
  unfold utf8
  simp only
  generalize c.toNat = n at hv
  split
  · exact .one (by omega) h
  · split
    · exact .two (by omega) (by omega) h
    · split
      · by_cases h1 : n / 4096 = 0
        · rw [h1]; exact .threeE0 (by omega) (by omega) h
        · by_cases h2 : n / 4096 = 13
          · rw [h2]; exact .threeED (by omega) (by omega) h
          · exact .three (by omega) (by omega) (by omega) h
      · by_cases h1 : n / 262144 = 0
        · rw [h1]; exact .fourF0 (by omega) (by omega) (by omega) h
        · by_cases h2 : n / 262144 = 4
          · rw [h2]; exact .fourF4 (by omega) (by omega) (by omega) h
          · exact .four (by omega) (by omega) (by omega) (by omega) h

theorem utf8s_wellFormed (s : Str) : Utf8Ok (utf8s s) := by
  induction s with
  | nil => exact .nil
  | cons c s ih => rw [utf8s_cons]; exact utf8_wellFormed c ih

/-- the character with a given number -/
theorem char_of_nat {n : Nat} (h : n < 0xD800 ∨ (0xDFFF < n ∧ n < 0x110000)) : ∃ c : Char, c.toNat = n :=
  ⟨Char.ofNat n, by
    have hv : n.isValidChar := h
    rw [Char.ofNat, dif_pos hv]
    rfl⟩

theorem wellFormed_utf8s {bs : List Nat} (h : Utf8Ok bs) : ∃ s, utf8s s = bs := by
  induction h with
  | nil => exact ⟨[], rfl⟩
  | @one a bs h1 _ ih =>
    obtain ⟨s, rfl⟩ := ih
    obtain ⟨c, hc⟩ := char_of_nat (n := a) (by omega)
    refine ⟨c :: s, ?_⟩
    rw [utf8s_cons, utf8, hc]
    rw [if_pos (by omega)]
    rfl
  | @two a b bs h1 h2 _ ih =>
    obtain ⟨s, rfl⟩ := ih
    obtain ⟨c, hc⟩ := char_of_nat (n := (a - 0xC0) * 64 + (b - 0x80)) (by omega)
    refine ⟨c :: s, ?_⟩
    rw [utf8s_cons, utf8, hc]
    rw [if_neg (by omega), if_pos (by omega)]
    simp only [List.cons_append, List.nil_append, List.cons.injEq, and_true]
    omega
  | @threeE0 b c bs h1 h2 _ ih =>
    obtain ⟨s, rfl⟩ := ih
    obtain ⟨ch, hc⟩ := char_of_nat (n := (b - 0x80) * 64 + (c - 0x80)) (by omega)
    refine ⟨ch :: s, ?_⟩
    rw [utf8s_cons, utf8, hc]
    rw [if_neg (by omega), if_neg (by omega), if_pos (by omega)]
    simp only [List.cons_append, List.nil_append, List.cons.injEq, and_true]
    omega
  | @three a b c bs h0 h1 h2 _ ih =>
    obtain ⟨s, rfl⟩ := ih
    obtain ⟨ch, hc⟩ := char_of_nat (n := (a - 0xE0) * 4096 + (b - 0x80) * 64 + (c - 0x80)) (by omega)
    refine ⟨ch :: s, ?_⟩
    rw [utf8s_cons, utf8, hc]
    rw [if_neg (by omega), if_neg (by omega), if_pos (by omega)]
    simp only [List.cons_append, List.nil_append, List.cons.injEq, and_true]
    omega
  | @threeED b c bs h1 h2 _ ih =>
    obtain ⟨s, rfl⟩ := ih
    obtain ⟨ch, hc⟩ := char_of_nat (n := 13 * 4096 + (b - 0x80) * 64 + (c - 0x80)) (by omega)
    refine ⟨ch :: s, ?_⟩
    rw [utf8s_cons, utf8, hc]
    rw [if_neg (by omega), if_neg (by omega), if_pos (by omega)]
    simp only [List.cons_append, List.nil_append, List.cons.injEq, and_true]
    omega
  | @fourF0 b c d bs h1 h2 h3 _ ih =>
    obtain ⟨s, rfl⟩ := ih
    obtain ⟨ch, hc⟩ := char_of_nat (n := (b - 0x80) * 4096 + (c - 0x80) * 64 + (d - 0x80)) (by omega)
    refine ⟨ch :: s, ?_⟩
    rw [utf8s_cons, utf8, hc]
    rw [if_neg (by omega), if_neg (by omega), if_neg (by omega)]
    simp only [List.cons_append, List.nil_append, List.cons.injEq, and_true]
    omega
  | @four a b c d bs h0 h1 h2 h3 _ ih =>
    obtain ⟨s, rfl⟩ := ih
    obtain ⟨ch, hc⟩ := char_of_nat (n := (a - 0xF0) * 262144 + (b - 0x80) * 4096 + (c - 0x80) * 64 + (d - 0x80)) (by omega)
    refine ⟨ch :: s, ?_⟩
    rw [utf8s_cons, utf8, hc]
    rw [if_neg (by omega), if_neg (by omega), if_neg (by omega)]
    simp only [List.cons_append, List.nil_append, List.cons.injEq, and_true]
    omega
  | @fourF4 b c d bs h1 h2 h3 _ ih =>
    obtain ⟨s, rfl⟩ := ih
    obtain ⟨ch, hc⟩ := char_of_nat (n := 4 * 262144 + (b - 0x80) * 4096 + (c - 0x80) * 64 + (d - 0x80)) (by omega)
    refine ⟨ch :: s, ?_⟩
    rw [utf8s_cons, utf8, hc]
    rw [if_neg (by omega), if_neg (by omega), if_neg (by omega)]
    simp only [List.cons_append, List.nil_append, List.cons.injEq, and_true]
    omega

/-! ### Order and injectivity -/

theorem cmpBytes_refl_append (l x y : List Nat) : cmpBytes (l ++ x) (l ++ y) = cmpBytes x y := by
  induction l with
  | nil => rfl
  | cons a l ih => simp [cmpBytes, ih]

theorem cmpBytes_lt {c d : Char} (h : c.toNat < d.toNat) (x y : List Nat) :
    cmpBytes (utf8 c ++ x) (utf8 d ++ y) = .lt := by
  have hc := scalar c
  have hd := scalar d
  unfold utf8
  simp only
  generalize c.toNat = n at h hc
  generalize d.toNat = m at h hd
  split <;> rename_i h1
  · split
    · simp [cmpBytes, h]
    · split
      · simp only [List.cons_append, cmpBytes]; rw [if_pos (by omega)]
      · split
        · simp only [List.cons_append, cmpBytes]; rw [if_pos (by omega)]
        · simp only [List.cons_append, cmpBytes]; rw [if_pos (by omega)]
  · split <;> rename_i h2
    · rw [if_neg (by omega)]
      split
      · simp only [List.cons_append, cmpBytes]
        by_cases e : n / 64 = m / 64
        · rw [e, if_neg (by omega), if_neg (by omega), if_pos (by omega)]
        · rw [if_pos (by omega)]
      · split
        · simp only [List.cons_append, cmpBytes]; rw [if_pos (by omega)]
        · simp only [List.cons_append, cmpBytes]; rw [if_pos (by omega)]
    · split <;> rename_i h3
      · rw [if_neg (by omega), if_neg (by omega)]
        split
        · simp only [List.cons_append, cmpBytes]
          by_cases e : n / 4096 = m / 4096
          · rw [e, if_neg (by omega), if_neg (by omega)]
            by_cases e2 : n / 64 % 64 = m / 64 % 64
            · rw [e2, if_neg (by omega), if_neg (by omega), if_pos (by omega)]
            · rw [if_pos (by omega)]
          · rw [if_pos (by omega)]
        · simp only [List.cons_append, cmpBytes]; rw [if_pos (by omega)]
      · rw [if_neg (by omega), if_neg (by omega), if_neg (by omega)]
        simp only [List.cons_append, cmpBytes]
        by_cases e : n / 262144 = m / 262144
        · rw [e, if_neg (by omega), if_neg (by omega)]
          by_cases e1 : n / 4096 % 64 = m / 4096 % 64
          · rw [e1, if_neg (by omega), if_neg (by omega)]
            by_cases e2 : n / 64 % 64 = m / 64 % 64
            · rw [e2, if_neg (by omega), if_neg (by omega), if_pos (by omega)]
            · rw [if_pos (by omega)]
          · rw [if_pos (by omega)]
        · rw [if_pos (by omega)]

theorem cmpBytes_swap (x y : List Nat) : (cmpBytes x y).swap = cmpBytes y x := by
  induction x generalizing y with
  | nil => cases y <;> rfl
  | cons a x ih =>
    cases y with
    | nil => rfl
    | cons b y =>
      simp only [cmpBytes]
      by_cases h1 : a < b
      · rw [if_pos h1, if_neg (by omega), if_pos h1]; rfl
      · rw [if_neg h1]
        by_cases h2 : b < a
        · rw [if_pos h2, if_pos h2]; rfl
        · rw [if_neg h2, if_neg h2, if_neg h1]; exact ih y

theorem utf8_ne_nil (c : Char) : ∃ b bs, utf8 c = b :: bs ∧ ¬ (0x80 ≤ b ∧ b ≤ 0xBF) := by
  have hc := scalar c
  unfold utf8
  simp only
  generalize c.toNat = n at hc
  split
  · exact ⟨_, _, rfl, by omega⟩
  · split
    · exact ⟨_, _, rfl, by omega⟩
    · split <;> exact ⟨_, _, rfl, by omega⟩

/-- The continuation bytes. -/
theorem utf8_tail (c : Char) {b : Nat} {bs : List Nat} (h : utf8 c = b :: bs) : ∀ x ∈ bs, 0x80 ≤ x ∧ x ≤ 0xBF := by
  have hc := scalar c
  unfold utf8 at h
  simp only at h
  generalize c.toNat = n at h hc
  split at h
  · obtain ⟨-, rfl⟩ := List.cons.inj h; intro x hx; cases hx
  · split at h
    · obtain ⟨-, rfl⟩ := List.cons.inj h
      simp only [List.mem_cons, List.not_mem_nil, or_false]
      rintro x rfl; omega
    · split at h
      · obtain ⟨-, rfl⟩ := List.cons.inj h
        simp only [List.mem_cons, List.not_mem_nil, or_false]
        rintro x (rfl | rfl) <;> omega
      · obtain ⟨-, rfl⟩ := List.cons.inj h
        simp only [List.mem_cons, List.not_mem_nil, or_false]
        rintro x (rfl | rfl | rfl) <;> omega

theorem cmpStr_bytes (s t : Str) : cmpStr s t = cmpBytes (utf8s s) (utf8s t) := by
  induction s generalizing t with
  | nil =>
    cases t with
    | nil => rfl
    | cons d t =>
      obtain ⟨b, bs, e, -⟩ := utf8_ne_nil d
      rw [utf8s_cons, e]
      rfl
  | cons c s ih =>
    cases t with
    | nil =>
      obtain ⟨b, bs, e, -⟩ := utf8_ne_nil c
      rw [utf8s_cons, e]
      rfl
    | cons d t =>
      rw [cmpStr, utf8s_cons, utf8s_cons]
      rcases Nat.lt_trichotomy c.toNat d.toNat with h | h | h
      · rw [cmpBytes_lt h, Nat.compare_eq_lt.2 h]; rfl
      · have e : c = d := Char.ext (UInt32.toNat_inj.1 h)
        subst e
        rw [cmpBytes_refl_append, Nat.compare_eq_eq.2 rfl, ih]; rfl
      · rw [← cmpBytes_swap, cmpBytes_lt h, Nat.compare_eq_gt.2 h]; rfl

/-! ### Boundaries -/

theorem utf8s_split {s : Str} {n : Nat} (h : CharBoundary (utf8s s) n) : ∃ p q, s = p ++ q ∧ bytes p = n := by
  induction s generalizing n with
  | nil =>
    refine ⟨[], [], rfl, ?_⟩
    rcases h with h | h | ⟨b, h, -⟩
    · exact h.symm
    · exact h.symm
    · cases n <;> cases h
  | cons c s ih =>
    by_cases h0 : n = 0
    · exact ⟨[], c :: s, rfl, h0.symm⟩
    · obtain ⟨b, bs, e, -⟩ := utf8_ne_nil c
      have hl := utf8_length c
      have hle : (utf8 c).length ≤ n := by
        rcases h with h | h | ⟨x, h, hx⟩
        · exact absurd h h0
        · rw [utf8s_cons, List.length_append] at h; omega
        · rw [utf8s_cons] at h
          apply Nat.le_of_not_lt
          intro hlt
          rw [List.getElem?_append_left hlt] at h
          obtain ⟨m, rfl⟩ : ∃ m, n = m + 1 := ⟨n - 1, by omega⟩
          rw [e, List.getElem?_cons_succ] at h
          exact hx (utf8_tail c e x (List.mem_of_getElem? h))
      have : CharBoundary (utf8s s) (n - (utf8 c).length) := by
        rcases h with h | h | ⟨x, h, hx⟩
        · exact absurd h h0
        · rw [utf8s_cons, List.length_append] at h; exact .inr (.inl (by omega))
        · rw [utf8s_cons, List.getElem?_append_right hle] at h
          exact .inr (.inr ⟨x, h, hx⟩)
      obtain ⟨p, q, rfl, hp⟩ := ih this
      exact ⟨c :: p, q, rfl, by rw [bytes_cons]; omega⟩

theorem split_boundary (p q : Str) : CharBoundary (utf8s (p ++ q)) (bytes p) := by
  cases q with
  | nil => exact .inr (.inl (by rw [List.append_nil, utf8s_length]))
  | cons c q =>
    obtain ⟨b, bs, e, hb⟩ := utf8_ne_nil c
    refine .inr (.inr ⟨b, ?_, hb⟩)
    rw [utf8s_append, ← utf8s_length, List.getElem?_append_right (Nat.le_refl _), Nat.sub_self, utf8s_cons, e]
    rfl

end Verif
