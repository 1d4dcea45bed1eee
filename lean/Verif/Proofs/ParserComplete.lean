import Verif.Proofs.ParserFollow
/-
Completeness of the parser: every word derivable by the grammar is parsed, to the value of its
derivation.  Generated by tools/gen_complete.py (one lemma `c_X` per production `X`).
-/
namespace Verif

set_option linter.unusedSimpArgs false
set_option linter.unusedVariables false

/-- the parser with fuel `f` parses every derivable word of measure at most `f` -/
def Comp (f : Nat) : Prop := ∀ (n : NT) (w : List STok) (v : Val n), Derives n w v →
  good n = true → 32 * w.length + rank n ≤ f → ∀ (p : Pos) (rest : List STok),
  Follow (bad n) rest → parse f n ⟨p, w ++ rest⟩ = some (v, ⟨stopFrom p w, rest⟩)

theorem Follow.tok {L : List Token} {a b : Pos} {k : Token} {ts : List STok} (h : k.kind ∉ L) :
    Follow L (⟨a, k, b⟩ :: ts) := Follow.cons h

theorem Derives.length_pos {n : NT} {w : List STok} {v : Val n} (d : Derives n w v)
    (h : nullable n = false) : 1 ≤ w.length := by
  cases w with
  | nil => exact absurd rfl (d.ne_nil h)
  | cons a w => simp

theorem Derives.startOf_app {n : NT} {w K : List STok} {v : Val n} (d : Derives n w v)
    (h : nullable n = false) : startOf (w ++ K) = startOf w := by
  cases w with
  | nil => exact absurd rfl (d.ne_nil h)
  | cons a w => rfl

/-- end of the last token -/
def lastStop (w : List STok) : Pos := stopFrom default w

theorem startOf_cons {t : STok} {ts : List STok} : startOf (t :: ts) = t.start := rfl

theorem Derives.stop_eq {n : NT} {w : List STok} {v : Val n} (d : Derives n w v)
    (h : nullable n = false) (p : Pos) : stopFrom p w = lastStop w := stopFrom_ne (d.ne_nil h) _ _

theorem expect_cons {k : Token} {p : Pos} {t : STok} {ts : List STok} :
    expect k ⟨p, t :: ts⟩ = if t.tok.kind = k then some ((), ⟨t.stop, ts⟩) else none := rfl

/-- nonterminals all of whose words are single tokens -/
def NT.single : NT → Bool
  | .typeName | .regularId | .specialId | .hexNumber | .signedInt | .componentId | .templateId
  | .customId | .stringLit | .byteString => true
  | _ => false

theorem Derives.single_word {n : NT} {w : List STok} {v : Val n} (d : Derives n w v)
    (h : n.single = true) : ∃ t, w = [t] := by
  induction d <;> first
    | (simp [NT.single] at h; done)
    | exact ⟨_, ‹_ = _›⟩
    | exact ‹_ → _› rfl

theorem Derives.single_at {n : NT} {w K : List STok} {v : Val n} (d : Derives n w v)
    (h : n.single = true) (p : Pos) (i : Nat) (k : Token) :
    (PS.mk p (w ++ K)).at? (i + 1) k = (PS.mk p K).at? i k := by
  obtain ⟨t, rfl⟩ := d.single_word h
  simp [PS.at?, PS.look]

theorem Derives.single_among {n : NT} {w K : List STok} {v : Val n} (d : Derives n w v)
    (h : n.single = true) (p : Pos) (i : Nat) (ks : List Token) :
    (PS.mk p (w ++ K)).among (i + 1) ks = (PS.mk p K).among i ks := by
  obtain ⟨t, rfl⟩ := d.single_word h
  simp [PS.among, PS.look]

theorem Derives.at0_true {n : NT} {w K : List STok} {v : Val n} {k : Token} (d : Derives n w v)
    (hn : nullable n = false) (hk : heads n = [k]) (p : Pos) :
    (PS.mk p (w ++ K)).at? 0 k = true := by
  cases w with
  | nil => exact absurd rfl (d.ne_nil hn)
  | cons a w =>
    have := d.headed _ _ rfl
    rw [hk] at this
    simpa using this

/-- a variable is one token, or starts with a type name -/
theorem varId_shape {w K : List STok} {v : Val .varId} (d : Derives .varId w v) :
    (∀ p k, (PS.mk p (w ++ K)).at? 1 k = (PS.mk p K).at? 0 k) ∨
    (∀ p x, (PS.mk p (w ++ K)).at? 0 (.identifier x) = false ∧
      (PS.mk p (w ++ K)).at? 0 (.specialIdentifier x) = false) := by
  cases d with
  | varName d => obtain ⟨a, x, b, rfl⟩ := regularId_word d; left; intro p k; simp
  | varSpecial d => obtain ⟨a, x, b, rfl⟩ := specialId_word d; left; intro p k; simp
  | varNamespace h d1 d2 =>
    obtain ⟨t, rfl, ht⟩ := typeName_word d1
    subst h
    right; intro p x
    rcases ht with ht | ht | ht <;> simp [ht]

set_option autoImplicit true in
theorem c_typeNameBytes (ih : Comp fu)
    (d1 : Derives .byteString w b)
    (hl : 32 * w.length + rank .typeName ≤ fu + 1) (hF : Follow (bad .typeName) rest) :
    pTypeName (parse fu) ⟨po, w ++ rest⟩ = some (((mkW w (.byteStringType b)) : Val .typeName), ⟨stopFrom po w, rest⟩) := by
  have l1 := d1.length_pos rfl
  simp only [List.length_append, List.length_cons, List.length_nil, rank] at hl
  have hA := fun p k hk => hF.at p k hk
  have hB := fun p M hM => hF.among (M := M) p hM
  have r1 : ∀ pp, parse fu .byteString ⟨pp, w ++ (rest)⟩ = some (b, ⟨stopFrom pp w, rest⟩) :=
    fun p => ih _ _ _ d1 rfl (by simp only [rank]; omega) p _ (hF.mono (by decide))
  have a1 := fun p k hk => d1.at0 (K := rest) rfl p k hk
  have b1 := fun p L hk => d1.among0 (K := rest) rfl p L hk
  have c1 := fun p L hk => d1.among0_false (K := rest) rfl p L hk
  have g1 := fun K => d1.startOf_app (K := K) rfl
  have e1e := fun p => d1.stop_eq rfl p
  have s1_1 : ∀ p k, (PS.mk p (w ++ (rest))).at? 1 k = (PS.mk p (rest)).at? 0 k := fun p k => d1.single_at (K := rest) rfl p 0 k
  have t1_1 : ∀ p k, (PS.mk p (w ++ (rest))).among 1 k = (PS.mk p (rest)).among 0 k := fun p k => d1.single_among (K := rest) rfl p 0 k
  have s1_2 : ∀ p k, (PS.mk p (w ++ (rest))).at? 2 k = (PS.mk p (rest)).at? 1 k := fun p k => d1.single_at (K := rest) rfl p 1 k
  have t1_2 : ∀ p k, (PS.mk p (w ++ (rest))).among 2 k = (PS.mk p (rest)).among 1 k := fun p k => d1.single_among (K := rest) rfl p 1 k
  have s1_3 : ∀ p k, (PS.mk p (w ++ (rest))).at? 3 k = (PS.mk p (rest)).at? 2 k := fun p k => d1.single_at (K := rest) rfl p 2 k
  have t1_3 : ∀ p k, (PS.mk p (w ++ (rest))).among 3 k = (PS.mk p (rest)).among 2 k := fun p k => d1.single_among (K := rest) rfl p 2 k
  have s1_4 : ∀ p k, (PS.mk p (w ++ (rest))).at? 4 k = (PS.mk p (rest)).at? 3 k := fun p k => d1.single_at (K := rest) rfl p 3 k
  have t1_4 : ∀ p k, (PS.mk p (w ++ (rest))).among 4 k = (PS.mk p (rest)).among 3 k := fun p k => d1.single_among (K := rest) rfl p 3 k
  have u1 := fun p => d1.at0_true (K := rest) (k := .byStrWithSize []) rfl rfl p
  simp (decide := true) [pTypeName, expect_cons, PS.wrap, mkW, startOf_cons, stopOf, stopFrom, stopFrom_append, hA, hB, r1, a1, b1, c1, g1, e1e, s1_1, t1_1, s1_2, t1_2, s1_3, t1_3, s1_4, t1_4, u1]

set_option autoImplicit true in
theorem c_typeNameEvent (ih : Comp fu)
    (heq : w = [⟨s, .eventType, e⟩])
    (hl : 32 * w.length + rank .typeName ≤ fu + 1) (hF : Follow (bad .typeName) rest) :
    pTypeName (parse fu) ⟨po, w ++ rest⟩ = some (((mkW w .eventType) : Val .typeName), ⟨stopFrom po w, rest⟩) := by
  subst heq
  simp only [List.length_append, List.length_cons, List.length_nil, rank] at hl
  have hA := fun p k hk => hF.at p k hk
  have hB := fun p M hM => hF.among (M := M) p hM
  simp (decide := true) [pTypeName, expect_cons, PS.wrap, mkW, startOf_cons, stopOf, stopFrom, stopFrom_append, hA, hB]

set_option autoImplicit true in
theorem c_typeNameCustom (ih : Comp fu)
    (d1 : Derives .customId w c)
    (hl : 32 * w.length + rank .typeName ≤ fu + 1) (hF : Follow (bad .typeName) rest) :
    pTypeName (parse fu) ⟨po, w ++ rest⟩ = some (((mkW w (.typeOrEnumLikeIdentifier c)) : Val .typeName), ⟨stopFrom po w, rest⟩) := by
  have l1 := d1.length_pos rfl
  simp only [List.length_append, List.length_cons, List.length_nil, rank] at hl
  have hA := fun p k hk => hF.at p k hk
  have hB := fun p M hM => hF.among (M := M) p hM
  have r1 : ∀ pp, parse fu .customId ⟨pp, w ++ (rest)⟩ = some (c, ⟨stopFrom pp w, rest⟩) :=
    fun p => ih _ _ _ d1 rfl (by simp only [rank]; omega) p _ (hF.mono (by decide))
  have a1 := fun p k hk => d1.at0 (K := rest) rfl p k hk
  have b1 := fun p L hk => d1.among0 (K := rest) rfl p L hk
  have c1 := fun p L hk => d1.among0_false (K := rest) rfl p L hk
  have g1 := fun K => d1.startOf_app (K := K) rfl
  have e1e := fun p => d1.stop_eq rfl p
  have s1_1 : ∀ p k, (PS.mk p (w ++ (rest))).at? 1 k = (PS.mk p (rest)).at? 0 k := fun p k => d1.single_at (K := rest) rfl p 0 k
  have t1_1 : ∀ p k, (PS.mk p (w ++ (rest))).among 1 k = (PS.mk p (rest)).among 0 k := fun p k => d1.single_among (K := rest) rfl p 0 k
  have s1_2 : ∀ p k, (PS.mk p (w ++ (rest))).at? 2 k = (PS.mk p (rest)).at? 1 k := fun p k => d1.single_at (K := rest) rfl p 1 k
  have t1_2 : ∀ p k, (PS.mk p (w ++ (rest))).among 2 k = (PS.mk p (rest)).among 1 k := fun p k => d1.single_among (K := rest) rfl p 1 k
  have s1_3 : ∀ p k, (PS.mk p (w ++ (rest))).at? 3 k = (PS.mk p (rest)).at? 2 k := fun p k => d1.single_at (K := rest) rfl p 2 k
  have t1_3 : ∀ p k, (PS.mk p (w ++ (rest))).among 3 k = (PS.mk p (rest)).among 2 k := fun p k => d1.single_among (K := rest) rfl p 2 k
  have s1_4 : ∀ p k, (PS.mk p (w ++ (rest))).at? 4 k = (PS.mk p (rest)).at? 3 k := fun p k => d1.single_at (K := rest) rfl p 3 k
  have t1_4 : ∀ p k, (PS.mk p (w ++ (rest))).among 4 k = (PS.mk p (rest)).among 3 k := fun p k => d1.single_among (K := rest) rfl p 3 k
  have u1 := fun p => d1.at0_true (K := rest) (k := .customIdentifier []) rfl rfl p
  simp (decide := true) [pTypeName, expect_cons, PS.wrap, mkW, startOf_cons, stopOf, stopFrom, stopFrom_append, hA, hB, r1, a1, b1, c1, g1, e1e, s1_1, t1_1, s1_2, t1_2, s1_3, t1_3, s1_4, t1_4, u1]

set_option autoImplicit true in
theorem c_importedRegular (ih : Comp fu)
    (d1 : Derives .typeName w n)
    (hl : 32 * w.length + rank .importedName ≤ fu + 1) (hF : Follow (bad .importedName) rest) :
    pImportedName (parse fu) ⟨po, w ++ rest⟩ = some (((mkW w (.regularImport n)) : Val .importedName), ⟨stopFrom po w, rest⟩) := by
  have l1 := d1.length_pos rfl
  simp only [List.length_append, List.length_cons, List.length_nil, rank] at hl
  have hA := fun p k hk => hF.at p k hk
  have hB := fun p M hM => hF.among (M := M) p hM
  have r1 : ∀ pp, parse fu .typeName ⟨pp, w ++ (rest)⟩ = some (n, ⟨stopFrom pp w, rest⟩) :=
    fun p => ih _ _ _ d1 rfl (by simp only [rank]; omega) p _ (hF.mono (by decide))
  have a1 := fun p k hk => d1.at0 (K := rest) rfl p k hk
  have b1 := fun p L hk => d1.among0 (K := rest) rfl p L hk
  have c1 := fun p L hk => d1.among0_false (K := rest) rfl p L hk
  have g1 := fun K => d1.startOf_app (K := K) rfl
  have e1e := fun p => d1.stop_eq rfl p
  have s1_1 : ∀ p k, (PS.mk p (w ++ (rest))).at? 1 k = (PS.mk p (rest)).at? 0 k := fun p k => d1.single_at (K := rest) rfl p 0 k
  have t1_1 : ∀ p k, (PS.mk p (w ++ (rest))).among 1 k = (PS.mk p (rest)).among 0 k := fun p k => d1.single_among (K := rest) rfl p 0 k
  have s1_2 : ∀ p k, (PS.mk p (w ++ (rest))).at? 2 k = (PS.mk p (rest)).at? 1 k := fun p k => d1.single_at (K := rest) rfl p 1 k
  have t1_2 : ∀ p k, (PS.mk p (w ++ (rest))).among 2 k = (PS.mk p (rest)).among 1 k := fun p k => d1.single_among (K := rest) rfl p 1 k
  have s1_3 : ∀ p k, (PS.mk p (w ++ (rest))).at? 3 k = (PS.mk p (rest)).at? 2 k := fun p k => d1.single_at (K := rest) rfl p 2 k
  have t1_3 : ∀ p k, (PS.mk p (w ++ (rest))).among 3 k = (PS.mk p (rest)).among 2 k := fun p k => d1.single_among (K := rest) rfl p 2 k
  have s1_4 : ∀ p k, (PS.mk p (w ++ (rest))).at? 4 k = (PS.mk p (rest)).at? 3 k := fun p k => d1.single_at (K := rest) rfl p 3 k
  have t1_4 : ∀ p k, (PS.mk p (w ++ (rest))).among 4 k = (PS.mk p (rest)).among 3 k := fun p k => d1.single_among (K := rest) rfl p 3 k
  simp (decide := true) [pImportedName, expect_cons, PS.wrap, mkW, startOf_cons, stopOf, stopFrom, stopFrom_append, hA, hB, r1, a1, b1, c1, g1, e1e, s1_1, t1_1, s1_2, t1_2, s1_3, t1_3, s1_4, t1_4]

set_option autoImplicit true in
theorem c_importedAliased (ih : Comp fu)
    (d1 : Derives .typeName w1 n)
    (d2 : Derives .typeName w2 a)
    (heq : w = w1 ++ ⟨s1, .as_, e1⟩ :: w2)
    (hl : 32 * w.length + rank .importedName ≤ fu + 1) (hF : Follow (bad .importedName) rest) :
    pImportedName (parse fu) ⟨po, w ++ rest⟩ = some (((mkW w (.aliasedImport n a)) : Val .importedName), ⟨stopFrom po w, rest⟩) := by
  have l1 := d1.length_pos rfl
  have l2 := d2.length_pos rfl
  subst heq
  simp only [List.length_append, List.length_cons, List.length_nil, rank] at hl
  have hA := fun p k hk => hF.at p k hk
  have hB := fun p M hM => hF.among (M := M) p hM
  have r1 : ∀ pp, parse fu .typeName ⟨pp, w1 ++ (⟨s1, .as_, e1⟩ :: (w2 ++ (rest)))⟩ = some (n, ⟨stopFrom pp w1, ⟨s1, .as_, e1⟩ :: (w2 ++ (rest))⟩) :=
    fun p => ih _ _ _ d1 rfl (by simp only [rank]; omega) p _ (.tok (by decide))
  have a1 := fun p k hk => d1.at0 (K := ⟨s1, .as_, e1⟩ :: (w2 ++ (rest))) rfl p k hk
  have b1 := fun p L hk => d1.among0 (K := ⟨s1, .as_, e1⟩ :: (w2 ++ (rest))) rfl p L hk
  have c1 := fun p L hk => d1.among0_false (K := ⟨s1, .as_, e1⟩ :: (w2 ++ (rest))) rfl p L hk
  have g1 := fun K => d1.startOf_app (K := K) rfl
  have e1e := fun p => d1.stop_eq rfl p
  have s1_1 : ∀ p k, (PS.mk p (w1 ++ (⟨s1, .as_, e1⟩ :: (w2 ++ (rest))))).at? 1 k = (PS.mk p (⟨s1, .as_, e1⟩ :: (w2 ++ (rest)))).at? 0 k := fun p k => d1.single_at (K := ⟨s1, .as_, e1⟩ :: (w2 ++ (rest))) rfl p 0 k
  have t1_1 : ∀ p k, (PS.mk p (w1 ++ (⟨s1, .as_, e1⟩ :: (w2 ++ (rest))))).among 1 k = (PS.mk p (⟨s1, .as_, e1⟩ :: (w2 ++ (rest)))).among 0 k := fun p k => d1.single_among (K := ⟨s1, .as_, e1⟩ :: (w2 ++ (rest))) rfl p 0 k
  have s1_2 : ∀ p k, (PS.mk p (w1 ++ (⟨s1, .as_, e1⟩ :: (w2 ++ (rest))))).at? 2 k = (PS.mk p (⟨s1, .as_, e1⟩ :: (w2 ++ (rest)))).at? 1 k := fun p k => d1.single_at (K := ⟨s1, .as_, e1⟩ :: (w2 ++ (rest))) rfl p 1 k
  have t1_2 : ∀ p k, (PS.mk p (w1 ++ (⟨s1, .as_, e1⟩ :: (w2 ++ (rest))))).among 2 k = (PS.mk p (⟨s1, .as_, e1⟩ :: (w2 ++ (rest)))).among 1 k := fun p k => d1.single_among (K := ⟨s1, .as_, e1⟩ :: (w2 ++ (rest))) rfl p 1 k
  have s1_3 : ∀ p k, (PS.mk p (w1 ++ (⟨s1, .as_, e1⟩ :: (w2 ++ (rest))))).at? 3 k = (PS.mk p (⟨s1, .as_, e1⟩ :: (w2 ++ (rest)))).at? 2 k := fun p k => d1.single_at (K := ⟨s1, .as_, e1⟩ :: (w2 ++ (rest))) rfl p 2 k
  have t1_3 : ∀ p k, (PS.mk p (w1 ++ (⟨s1, .as_, e1⟩ :: (w2 ++ (rest))))).among 3 k = (PS.mk p (⟨s1, .as_, e1⟩ :: (w2 ++ (rest)))).among 2 k := fun p k => d1.single_among (K := ⟨s1, .as_, e1⟩ :: (w2 ++ (rest))) rfl p 2 k
  have s1_4 : ∀ p k, (PS.mk p (w1 ++ (⟨s1, .as_, e1⟩ :: (w2 ++ (rest))))).at? 4 k = (PS.mk p (⟨s1, .as_, e1⟩ :: (w2 ++ (rest)))).at? 3 k := fun p k => d1.single_at (K := ⟨s1, .as_, e1⟩ :: (w2 ++ (rest))) rfl p 3 k
  have t1_4 : ∀ p k, (PS.mk p (w1 ++ (⟨s1, .as_, e1⟩ :: (w2 ++ (rest))))).among 4 k = (PS.mk p (⟨s1, .as_, e1⟩ :: (w2 ++ (rest)))).among 3 k := fun p k => d1.single_among (K := ⟨s1, .as_, e1⟩ :: (w2 ++ (rest))) rfl p 3 k
  have r2 : ∀ pp, parse fu .typeName ⟨pp, w2 ++ (rest)⟩ = some (a, ⟨stopFrom pp w2, rest⟩) :=
    fun p => ih _ _ _ d2 rfl (by simp only [rank]; omega) p _ (hF.mono (by decide))
  have a2 := fun p k hk => d2.at0 (K := rest) rfl p k hk
  have b2 := fun p L hk => d2.among0 (K := rest) rfl p L hk
  have c2 := fun p L hk => d2.among0_false (K := rest) rfl p L hk
  have g2 := fun K => d2.startOf_app (K := K) rfl
  have e2e := fun p => d2.stop_eq rfl p
  have s2_1 : ∀ p k, (PS.mk p (w2 ++ (rest))).at? 1 k = (PS.mk p (rest)).at? 0 k := fun p k => d2.single_at (K := rest) rfl p 0 k
  have t2_1 : ∀ p k, (PS.mk p (w2 ++ (rest))).among 1 k = (PS.mk p (rest)).among 0 k := fun p k => d2.single_among (K := rest) rfl p 0 k
  have s2_2 : ∀ p k, (PS.mk p (w2 ++ (rest))).at? 2 k = (PS.mk p (rest)).at? 1 k := fun p k => d2.single_at (K := rest) rfl p 1 k
  have t2_2 : ∀ p k, (PS.mk p (w2 ++ (rest))).among 2 k = (PS.mk p (rest)).among 1 k := fun p k => d2.single_among (K := rest) rfl p 1 k
  have s2_3 : ∀ p k, (PS.mk p (w2 ++ (rest))).at? 3 k = (PS.mk p (rest)).at? 2 k := fun p k => d2.single_at (K := rest) rfl p 2 k
  have t2_3 : ∀ p k, (PS.mk p (w2 ++ (rest))).among 3 k = (PS.mk p (rest)).among 2 k := fun p k => d2.single_among (K := rest) rfl p 2 k
  have s2_4 : ∀ p k, (PS.mk p (w2 ++ (rest))).at? 4 k = (PS.mk p (rest)).at? 3 k := fun p k => d2.single_at (K := rest) rfl p 3 k
  have t2_4 : ∀ p k, (PS.mk p (w2 ++ (rest))).among 4 k = (PS.mk p (rest)).among 3 k := fun p k => d2.single_among (K := rest) rfl p 3 k
  simp (decide := true) [pImportedName, expect_cons, PS.wrap, mkW, startOf_cons, stopOf, stopFrom, stopFrom_append, hA, hB, r1, a1, b1, c1, g1, e1e, s1_1, t1_1, s1_2, t1_2, s1_3, t1_3, s1_4, t1_4, r2, a2, b2, c2, g2, e2e, s2_1, t2_1, s2_2, t2_2, s2_3, t2_3, s2_4, t2_4]

set_option autoImplicit true in
theorem c_metaName (ih : Comp fu)
    (d1 : Derives .typeName w n)
    (hl : 32 * w.length + rank .metaId ≤ fu + 1) (hF : Follow (bad .metaId) rest) :
    pMetaId (parse fu) ⟨po, w ++ rest⟩ = some (((mkW w (.metaName n)) : Val .metaId), ⟨stopFrom po w, rest⟩) := by
  have l1 := d1.length_pos rfl
  simp only [List.length_append, List.length_cons, List.length_nil, rank] at hl
  have hA := fun p k hk => hF.at p k hk
  have hB := fun p M hM => hF.among (M := M) p hM
  have r1 : ∀ pp, parse fu .typeName ⟨pp, w ++ (rest)⟩ = some (n, ⟨stopFrom pp w, rest⟩) :=
    fun p => ih _ _ _ d1 rfl (by simp only [rank]; omega) p _ (hF.mono (by decide))
  have a1 := fun p k hk => d1.at0 (K := rest) rfl p k hk
  have b1 := fun p L hk => d1.among0 (K := rest) rfl p L hk
  have c1 := fun p L hk => d1.among0_false (K := rest) rfl p L hk
  have g1 := fun K => d1.startOf_app (K := K) rfl
  have e1e := fun p => d1.stop_eq rfl p
  have s1_1 : ∀ p k, (PS.mk p (w ++ (rest))).at? 1 k = (PS.mk p (rest)).at? 0 k := fun p k => d1.single_at (K := rest) rfl p 0 k
  have t1_1 : ∀ p k, (PS.mk p (w ++ (rest))).among 1 k = (PS.mk p (rest)).among 0 k := fun p k => d1.single_among (K := rest) rfl p 0 k
  have s1_2 : ∀ p k, (PS.mk p (w ++ (rest))).at? 2 k = (PS.mk p (rest)).at? 1 k := fun p k => d1.single_at (K := rest) rfl p 1 k
  have t1_2 : ∀ p k, (PS.mk p (w ++ (rest))).among 2 k = (PS.mk p (rest)).among 1 k := fun p k => d1.single_among (K := rest) rfl p 1 k
  have s1_3 : ∀ p k, (PS.mk p (w ++ (rest))).at? 3 k = (PS.mk p (rest)).at? 2 k := fun p k => d1.single_at (K := rest) rfl p 2 k
  have t1_3 : ∀ p k, (PS.mk p (w ++ (rest))).among 3 k = (PS.mk p (rest)).among 2 k := fun p k => d1.single_among (K := rest) rfl p 2 k
  have s1_4 : ∀ p k, (PS.mk p (w ++ (rest))).at? 4 k = (PS.mk p (rest)).at? 3 k := fun p k => d1.single_at (K := rest) rfl p 3 k
  have t1_4 : ∀ p k, (PS.mk p (w ++ (rest))).among 4 k = (PS.mk p (rest)).among 3 k := fun p k => d1.single_among (K := rest) rfl p 3 k
  simp (decide := true) [pMetaId, expect_cons, PS.wrap, mkW, startOf_cons, stopOf, stopFrom, stopFrom_append, hA, hB, r1, a1, b1, c1, g1, e1e, s1_1, t1_1, s1_2, t1_2, s1_3, t1_3, s1_4, t1_4]

set_option autoImplicit true in
theorem c_metaNamespace (ih : Comp fu)
    (d1 : Derives .typeName w1 l)
    (d2 : Derives .typeName w2 r)
    (heq : w = w1 ++ ⟨s1, .dot, e1⟩ :: w2)
    (hl : 32 * w.length + rank .metaId ≤ fu + 1) (hF : Follow (bad .metaId) rest) :
    pMetaId (parse fu) ⟨po, w ++ rest⟩ = some (((mkW w (.metaNameInNamespace l r)) : Val .metaId), ⟨stopFrom po w, rest⟩) := by
  have l1 := d1.length_pos rfl
  have l2 := d2.length_pos rfl
  subst heq
  simp only [List.length_append, List.length_cons, List.length_nil, rank] at hl
  have hA := fun p k hk => hF.at p k hk
  have hB := fun p M hM => hF.among (M := M) p hM
  have r1 : ∀ pp, parse fu .typeName ⟨pp, w1 ++ (⟨s1, .dot, e1⟩ :: (w2 ++ (rest)))⟩ = some (l, ⟨stopFrom pp w1, ⟨s1, .dot, e1⟩ :: (w2 ++ (rest))⟩) :=
    fun p => ih _ _ _ d1 rfl (by simp only [rank]; omega) p _ (.tok (by decide))
  have a1 := fun p k hk => d1.at0 (K := ⟨s1, .dot, e1⟩ :: (w2 ++ (rest))) rfl p k hk
  have b1 := fun p L hk => d1.among0 (K := ⟨s1, .dot, e1⟩ :: (w2 ++ (rest))) rfl p L hk
  have c1 := fun p L hk => d1.among0_false (K := ⟨s1, .dot, e1⟩ :: (w2 ++ (rest))) rfl p L hk
  have g1 := fun K => d1.startOf_app (K := K) rfl
  have e1e := fun p => d1.stop_eq rfl p
  have s1_1 : ∀ p k, (PS.mk p (w1 ++ (⟨s1, .dot, e1⟩ :: (w2 ++ (rest))))).at? 1 k = (PS.mk p (⟨s1, .dot, e1⟩ :: (w2 ++ (rest)))).at? 0 k := fun p k => d1.single_at (K := ⟨s1, .dot, e1⟩ :: (w2 ++ (rest))) rfl p 0 k
  have t1_1 : ∀ p k, (PS.mk p (w1 ++ (⟨s1, .dot, e1⟩ :: (w2 ++ (rest))))).among 1 k = (PS.mk p (⟨s1, .dot, e1⟩ :: (w2 ++ (rest)))).among 0 k := fun p k => d1.single_among (K := ⟨s1, .dot, e1⟩ :: (w2 ++ (rest))) rfl p 0 k
  have s1_2 : ∀ p k, (PS.mk p (w1 ++ (⟨s1, .dot, e1⟩ :: (w2 ++ (rest))))).at? 2 k = (PS.mk p (⟨s1, .dot, e1⟩ :: (w2 ++ (rest)))).at? 1 k := fun p k => d1.single_at (K := ⟨s1, .dot, e1⟩ :: (w2 ++ (rest))) rfl p 1 k
  have t1_2 : ∀ p k, (PS.mk p (w1 ++ (⟨s1, .dot, e1⟩ :: (w2 ++ (rest))))).among 2 k = (PS.mk p (⟨s1, .dot, e1⟩ :: (w2 ++ (rest)))).among 1 k := fun p k => d1.single_among (K := ⟨s1, .dot, e1⟩ :: (w2 ++ (rest))) rfl p 1 k
  have s1_3 : ∀ p k, (PS.mk p (w1 ++ (⟨s1, .dot, e1⟩ :: (w2 ++ (rest))))).at? 3 k = (PS.mk p (⟨s1, .dot, e1⟩ :: (w2 ++ (rest)))).at? 2 k := fun p k => d1.single_at (K := ⟨s1, .dot, e1⟩ :: (w2 ++ (rest))) rfl p 2 k
  have t1_3 : ∀ p k, (PS.mk p (w1 ++ (⟨s1, .dot, e1⟩ :: (w2 ++ (rest))))).among 3 k = (PS.mk p (⟨s1, .dot, e1⟩ :: (w2 ++ (rest)))).among 2 k := fun p k => d1.single_among (K := ⟨s1, .dot, e1⟩ :: (w2 ++ (rest))) rfl p 2 k
  have s1_4 : ∀ p k, (PS.mk p (w1 ++ (⟨s1, .dot, e1⟩ :: (w2 ++ (rest))))).at? 4 k = (PS.mk p (⟨s1, .dot, e1⟩ :: (w2 ++ (rest)))).at? 3 k := fun p k => d1.single_at (K := ⟨s1, .dot, e1⟩ :: (w2 ++ (rest))) rfl p 3 k
  have t1_4 : ∀ p k, (PS.mk p (w1 ++ (⟨s1, .dot, e1⟩ :: (w2 ++ (rest))))).among 4 k = (PS.mk p (⟨s1, .dot, e1⟩ :: (w2 ++ (rest)))).among 3 k := fun p k => d1.single_among (K := ⟨s1, .dot, e1⟩ :: (w2 ++ (rest))) rfl p 3 k
  have r2 : ∀ pp, parse fu .typeName ⟨pp, w2 ++ (rest)⟩ = some (r, ⟨stopFrom pp w2, rest⟩) :=
    fun p => ih _ _ _ d2 rfl (by simp only [rank]; omega) p _ (hF.mono (by decide))
  have a2 := fun p k hk => d2.at0 (K := rest) rfl p k hk
  have b2 := fun p L hk => d2.among0 (K := rest) rfl p L hk
  have c2 := fun p L hk => d2.among0_false (K := rest) rfl p L hk
  have g2 := fun K => d2.startOf_app (K := K) rfl
  have e2e := fun p => d2.stop_eq rfl p
  have s2_1 : ∀ p k, (PS.mk p (w2 ++ (rest))).at? 1 k = (PS.mk p (rest)).at? 0 k := fun p k => d2.single_at (K := rest) rfl p 0 k
  have t2_1 : ∀ p k, (PS.mk p (w2 ++ (rest))).among 1 k = (PS.mk p (rest)).among 0 k := fun p k => d2.single_among (K := rest) rfl p 0 k
  have s2_2 : ∀ p k, (PS.mk p (w2 ++ (rest))).at? 2 k = (PS.mk p (rest)).at? 1 k := fun p k => d2.single_at (K := rest) rfl p 1 k
  have t2_2 : ∀ p k, (PS.mk p (w2 ++ (rest))).among 2 k = (PS.mk p (rest)).among 1 k := fun p k => d2.single_among (K := rest) rfl p 1 k
  have s2_3 : ∀ p k, (PS.mk p (w2 ++ (rest))).at? 3 k = (PS.mk p (rest)).at? 2 k := fun p k => d2.single_at (K := rest) rfl p 2 k
  have t2_3 : ∀ p k, (PS.mk p (w2 ++ (rest))).among 3 k = (PS.mk p (rest)).among 2 k := fun p k => d2.single_among (K := rest) rfl p 2 k
  have s2_4 : ∀ p k, (PS.mk p (w2 ++ (rest))).at? 4 k = (PS.mk p (rest)).at? 3 k := fun p k => d2.single_at (K := rest) rfl p 3 k
  have t2_4 : ∀ p k, (PS.mk p (w2 ++ (rest))).among 4 k = (PS.mk p (rest)).among 3 k := fun p k => d2.single_among (K := rest) rfl p 3 k
  simp (decide := true) [pMetaId, expect_cons, PS.wrap, mkW, startOf_cons, stopOf, stopFrom, stopFrom_append, hA, hB, r1, a1, b1, c1, g1, e1e, s1_1, t1_1, s1_2, t1_2, s1_3, t1_3, s1_4, t1_4, r2, a2, b2, c2, g2, e2e, s2_1, t2_1, s2_2, t2_2, s2_3, t2_3, s2_4, t2_4]

set_option autoImplicit true in
theorem c_metaHexspace (ih : Comp fu)
    (d1 : Derives .hexNumber w1 l)
    (d2 : Derives .typeName w2 r)
    (heq : w = w1 ++ ⟨s1, .dot, e1⟩ :: w2)
    (hl : 32 * w.length + rank .metaId ≤ fu + 1) (hF : Follow (bad .metaId) rest) :
    pMetaId (parse fu) ⟨po, w ++ rest⟩ = some (((mkW w (.metaNameInHexspace l r)) : Val .metaId), ⟨stopFrom po w, rest⟩) := by
  have l1 := d1.length_pos rfl
  have l2 := d2.length_pos rfl
  subst heq
  simp only [List.length_append, List.length_cons, List.length_nil, rank] at hl
  have hA := fun p k hk => hF.at p k hk
  have hB := fun p M hM => hF.among (M := M) p hM
  have r1 : ∀ pp, parse fu .hexNumber ⟨pp, w1 ++ (⟨s1, .dot, e1⟩ :: (w2 ++ (rest)))⟩ = some (l, ⟨stopFrom pp w1, ⟨s1, .dot, e1⟩ :: (w2 ++ (rest))⟩) :=
    fun p => ih _ _ _ d1 rfl (by simp only [rank]; omega) p _ (.tok (by decide))
  have a1 := fun p k hk => d1.at0 (K := ⟨s1, .dot, e1⟩ :: (w2 ++ (rest))) rfl p k hk
  have b1 := fun p L hk => d1.among0 (K := ⟨s1, .dot, e1⟩ :: (w2 ++ (rest))) rfl p L hk
  have c1 := fun p L hk => d1.among0_false (K := ⟨s1, .dot, e1⟩ :: (w2 ++ (rest))) rfl p L hk
  have g1 := fun K => d1.startOf_app (K := K) rfl
  have e1e := fun p => d1.stop_eq rfl p
  have s1_1 : ∀ p k, (PS.mk p (w1 ++ (⟨s1, .dot, e1⟩ :: (w2 ++ (rest))))).at? 1 k = (PS.mk p (⟨s1, .dot, e1⟩ :: (w2 ++ (rest)))).at? 0 k := fun p k => d1.single_at (K := ⟨s1, .dot, e1⟩ :: (w2 ++ (rest))) rfl p 0 k
  have t1_1 : ∀ p k, (PS.mk p (w1 ++ (⟨s1, .dot, e1⟩ :: (w2 ++ (rest))))).among 1 k = (PS.mk p (⟨s1, .dot, e1⟩ :: (w2 ++ (rest)))).among 0 k := fun p k => d1.single_among (K := ⟨s1, .dot, e1⟩ :: (w2 ++ (rest))) rfl p 0 k
  have s1_2 : ∀ p k, (PS.mk p (w1 ++ (⟨s1, .dot, e1⟩ :: (w2 ++ (rest))))).at? 2 k = (PS.mk p (⟨s1, .dot, e1⟩ :: (w2 ++ (rest)))).at? 1 k := fun p k => d1.single_at (K := ⟨s1, .dot, e1⟩ :: (w2 ++ (rest))) rfl p 1 k
  have t1_2 : ∀ p k, (PS.mk p (w1 ++ (⟨s1, .dot, e1⟩ :: (w2 ++ (rest))))).among 2 k = (PS.mk p (⟨s1, .dot, e1⟩ :: (w2 ++ (rest)))).among 1 k := fun p k => d1.single_among (K := ⟨s1, .dot, e1⟩ :: (w2 ++ (rest))) rfl p 1 k
  have s1_3 : ∀ p k, (PS.mk p (w1 ++ (⟨s1, .dot, e1⟩ :: (w2 ++ (rest))))).at? 3 k = (PS.mk p (⟨s1, .dot, e1⟩ :: (w2 ++ (rest)))).at? 2 k := fun p k => d1.single_at (K := ⟨s1, .dot, e1⟩ :: (w2 ++ (rest))) rfl p 2 k
  have t1_3 : ∀ p k, (PS.mk p (w1 ++ (⟨s1, .dot, e1⟩ :: (w2 ++ (rest))))).among 3 k = (PS.mk p (⟨s1, .dot, e1⟩ :: (w2 ++ (rest)))).among 2 k := fun p k => d1.single_among (K := ⟨s1, .dot, e1⟩ :: (w2 ++ (rest))) rfl p 2 k
  have s1_4 : ∀ p k, (PS.mk p (w1 ++ (⟨s1, .dot, e1⟩ :: (w2 ++ (rest))))).at? 4 k = (PS.mk p (⟨s1, .dot, e1⟩ :: (w2 ++ (rest)))).at? 3 k := fun p k => d1.single_at (K := ⟨s1, .dot, e1⟩ :: (w2 ++ (rest))) rfl p 3 k
  have t1_4 : ∀ p k, (PS.mk p (w1 ++ (⟨s1, .dot, e1⟩ :: (w2 ++ (rest))))).among 4 k = (PS.mk p (⟨s1, .dot, e1⟩ :: (w2 ++ (rest)))).among 3 k := fun p k => d1.single_among (K := ⟨s1, .dot, e1⟩ :: (w2 ++ (rest))) rfl p 3 k
  have u1 := fun p => d1.at0_true (K := ⟨s1, .dot, e1⟩ :: (w2 ++ (rest))) (k := .hexNumber []) rfl rfl p
  have r2 : ∀ pp, parse fu .typeName ⟨pp, w2 ++ (rest)⟩ = some (r, ⟨stopFrom pp w2, rest⟩) :=
    fun p => ih _ _ _ d2 rfl (by simp only [rank]; omega) p _ (hF.mono (by decide))
  have a2 := fun p k hk => d2.at0 (K := rest) rfl p k hk
  have b2 := fun p L hk => d2.among0 (K := rest) rfl p L hk
  have c2 := fun p L hk => d2.among0_false (K := rest) rfl p L hk
  have g2 := fun K => d2.startOf_app (K := K) rfl
  have e2e := fun p => d2.stop_eq rfl p
  have s2_1 : ∀ p k, (PS.mk p (w2 ++ (rest))).at? 1 k = (PS.mk p (rest)).at? 0 k := fun p k => d2.single_at (K := rest) rfl p 0 k
  have t2_1 : ∀ p k, (PS.mk p (w2 ++ (rest))).among 1 k = (PS.mk p (rest)).among 0 k := fun p k => d2.single_among (K := rest) rfl p 0 k
  have s2_2 : ∀ p k, (PS.mk p (w2 ++ (rest))).at? 2 k = (PS.mk p (rest)).at? 1 k := fun p k => d2.single_at (K := rest) rfl p 1 k
  have t2_2 : ∀ p k, (PS.mk p (w2 ++ (rest))).among 2 k = (PS.mk p (rest)).among 1 k := fun p k => d2.single_among (K := rest) rfl p 1 k
  have s2_3 : ∀ p k, (PS.mk p (w2 ++ (rest))).at? 3 k = (PS.mk p (rest)).at? 2 k := fun p k => d2.single_at (K := rest) rfl p 2 k
  have t2_3 : ∀ p k, (PS.mk p (w2 ++ (rest))).among 3 k = (PS.mk p (rest)).among 2 k := fun p k => d2.single_among (K := rest) rfl p 2 k
  have s2_4 : ∀ p k, (PS.mk p (w2 ++ (rest))).at? 4 k = (PS.mk p (rest)).at? 3 k := fun p k => d2.single_at (K := rest) rfl p 3 k
  have t2_4 : ∀ p k, (PS.mk p (w2 ++ (rest))).among 4 k = (PS.mk p (rest)).among 3 k := fun p k => d2.single_among (K := rest) rfl p 3 k
  simp (decide := true) [pMetaId, expect_cons, PS.wrap, mkW, startOf_cons, stopOf, stopFrom, stopFrom_append, hA, hB, r1, a1, b1, c1, g1, e1e, s1_1, t1_1, s1_2, t1_2, s1_3, t1_3, s1_4, t1_4, u1, r2, a2, b2, c2, g2, e2e, s2_1, t2_1, s2_2, t2_2, s2_3, t2_3, s2_4, t2_4]

set_option autoImplicit true in
theorem c_metaByStr (ih : Comp fu)
    (heq : w = [⟨s, .byStr, e⟩])
    (hl : 32 * w.length + rank .metaId ≤ fu + 1) (hF : Follow (bad .metaId) rest) :
    pMetaId (parse fu) ⟨po, w ++ rest⟩ = some (((mkW w .byteString) : Val .metaId), ⟨stopFrom po w, rest⟩) := by
  subst heq
  simp only [List.length_append, List.length_cons, List.length_nil, rank] at hl
  have hA := fun p k hk => hF.at p k hk
  have hB := fun p M hM => hF.among (M := M) p hM
  simp (decide := true) [pMetaId, expect_cons, PS.wrap, mkW, startOf_cons, stopOf, stopFrom, stopFrom_append, hA, hB]

set_option autoImplicit true in
theorem c_varName (ih : Comp fu)
    (d1 : Derives .regularId w n)
    (hl : 32 * w.length + rank .varId ≤ fu + 1) (hF : Follow (bad .varId) rest) :
    pVarId (parse fu) ⟨po, w ++ rest⟩ = some (((mkW w (.variableName n)) : Val .varId), ⟨stopFrom po w, rest⟩) := by
  have l1 := d1.length_pos rfl
  simp only [List.length_append, List.length_cons, List.length_nil, rank] at hl
  have hA := fun p k hk => hF.at p k hk
  have hB := fun p M hM => hF.among (M := M) p hM
  have r1 : ∀ pp, parse fu .regularId ⟨pp, w ++ (rest)⟩ = some (n, ⟨stopFrom pp w, rest⟩) :=
    fun p => ih _ _ _ d1 rfl (by simp only [rank]; omega) p _ (hF.mono (by decide))
  have a1 := fun p k hk => d1.at0 (K := rest) rfl p k hk
  have b1 := fun p L hk => d1.among0 (K := rest) rfl p L hk
  have c1 := fun p L hk => d1.among0_false (K := rest) rfl p L hk
  have g1 := fun K => d1.startOf_app (K := K) rfl
  have e1e := fun p => d1.stop_eq rfl p
  have s1_1 : ∀ p k, (PS.mk p (w ++ (rest))).at? 1 k = (PS.mk p (rest)).at? 0 k := fun p k => d1.single_at (K := rest) rfl p 0 k
  have t1_1 : ∀ p k, (PS.mk p (w ++ (rest))).among 1 k = (PS.mk p (rest)).among 0 k := fun p k => d1.single_among (K := rest) rfl p 0 k
  have s1_2 : ∀ p k, (PS.mk p (w ++ (rest))).at? 2 k = (PS.mk p (rest)).at? 1 k := fun p k => d1.single_at (K := rest) rfl p 1 k
  have t1_2 : ∀ p k, (PS.mk p (w ++ (rest))).among 2 k = (PS.mk p (rest)).among 1 k := fun p k => d1.single_among (K := rest) rfl p 1 k
  have s1_3 : ∀ p k, (PS.mk p (w ++ (rest))).at? 3 k = (PS.mk p (rest)).at? 2 k := fun p k => d1.single_at (K := rest) rfl p 2 k
  have t1_3 : ∀ p k, (PS.mk p (w ++ (rest))).among 3 k = (PS.mk p (rest)).among 2 k := fun p k => d1.single_among (K := rest) rfl p 2 k
  have s1_4 : ∀ p k, (PS.mk p (w ++ (rest))).at? 4 k = (PS.mk p (rest)).at? 3 k := fun p k => d1.single_at (K := rest) rfl p 3 k
  have t1_4 : ∀ p k, (PS.mk p (w ++ (rest))).among 4 k = (PS.mk p (rest)).among 3 k := fun p k => d1.single_among (K := rest) rfl p 3 k
  have u1 := fun p => d1.at0_true (K := rest) (k := .identifier []) rfl rfl p
  simp (decide := true) [pVarId, expect_cons, PS.wrap, mkW, startOf_cons, stopOf, stopFrom, stopFrom_append, hA, hB, r1, a1, b1, c1, g1, e1e, s1_1, t1_1, s1_2, t1_2, s1_3, t1_3, s1_4, t1_4, u1]

set_option autoImplicit true in
theorem c_varSpecial (ih : Comp fu)
    (d1 : Derives .specialId w n)
    (hl : 32 * w.length + rank .varId ≤ fu + 1) (hF : Follow (bad .varId) rest) :
    pVarId (parse fu) ⟨po, w ++ rest⟩ = some (((mkW w (.specialIdentifier n)) : Val .varId), ⟨stopFrom po w, rest⟩) := by
  have l1 := d1.length_pos rfl
  simp only [List.length_append, List.length_cons, List.length_nil, rank] at hl
  have hA := fun p k hk => hF.at p k hk
  have hB := fun p M hM => hF.among (M := M) p hM
  have r1 : ∀ pp, parse fu .specialId ⟨pp, w ++ (rest)⟩ = some (n, ⟨stopFrom pp w, rest⟩) :=
    fun p => ih _ _ _ d1 rfl (by simp only [rank]; omega) p _ (hF.mono (by decide))
  have a1 := fun p k hk => d1.at0 (K := rest) rfl p k hk
  have b1 := fun p L hk => d1.among0 (K := rest) rfl p L hk
  have c1 := fun p L hk => d1.among0_false (K := rest) rfl p L hk
  have g1 := fun K => d1.startOf_app (K := K) rfl
  have e1e := fun p => d1.stop_eq rfl p
  have s1_1 : ∀ p k, (PS.mk p (w ++ (rest))).at? 1 k = (PS.mk p (rest)).at? 0 k := fun p k => d1.single_at (K := rest) rfl p 0 k
  have t1_1 : ∀ p k, (PS.mk p (w ++ (rest))).among 1 k = (PS.mk p (rest)).among 0 k := fun p k => d1.single_among (K := rest) rfl p 0 k
  have s1_2 : ∀ p k, (PS.mk p (w ++ (rest))).at? 2 k = (PS.mk p (rest)).at? 1 k := fun p k => d1.single_at (K := rest) rfl p 1 k
  have t1_2 : ∀ p k, (PS.mk p (w ++ (rest))).among 2 k = (PS.mk p (rest)).among 1 k := fun p k => d1.single_among (K := rest) rfl p 1 k
  have s1_3 : ∀ p k, (PS.mk p (w ++ (rest))).at? 3 k = (PS.mk p (rest)).at? 2 k := fun p k => d1.single_at (K := rest) rfl p 2 k
  have t1_3 : ∀ p k, (PS.mk p (w ++ (rest))).among 3 k = (PS.mk p (rest)).among 2 k := fun p k => d1.single_among (K := rest) rfl p 2 k
  have s1_4 : ∀ p k, (PS.mk p (w ++ (rest))).at? 4 k = (PS.mk p (rest)).at? 3 k := fun p k => d1.single_at (K := rest) rfl p 3 k
  have t1_4 : ∀ p k, (PS.mk p (w ++ (rest))).among 4 k = (PS.mk p (rest)).among 3 k := fun p k => d1.single_among (K := rest) rfl p 3 k
  have u1 := fun p => d1.at0_true (K := rest) (k := .specialIdentifier []) rfl rfl p
  simp (decide := true) [pVarId, expect_cons, PS.wrap, mkW, startOf_cons, stopOf, stopFrom, stopFrom_append, hA, hB, r1, a1, b1, c1, g1, e1e, s1_1, t1_1, s1_2, t1_2, s1_3, t1_3, s1_4, t1_4, u1]

set_option autoImplicit true in
theorem c_varNamespace (ih : Comp fu)
    (d1 : Derives .typeName w1 n)
    (d2 : Derives .regularId w2 r)
    (heq : w = w1 ++ ⟨s1, .dot, e1⟩ :: w2)
    (hl : 32 * w.length + rank .varId ≤ fu + 1) (hF : Follow (bad .varId) rest) :
    pVarId (parse fu) ⟨po, w ++ rest⟩ = some (((mkW w (.variableInNamespace n r)) : Val .varId), ⟨stopFrom po w, rest⟩) := by
  have l1 := d1.length_pos rfl
  have l2 := d2.length_pos rfl
  subst heq
  simp only [List.length_append, List.length_cons, List.length_nil, rank] at hl
  have hA := fun p k hk => hF.at p k hk
  have hB := fun p M hM => hF.among (M := M) p hM
  have r1 : ∀ pp, parse fu .typeName ⟨pp, w1 ++ (⟨s1, .dot, e1⟩ :: (w2 ++ (rest)))⟩ = some (n, ⟨stopFrom pp w1, ⟨s1, .dot, e1⟩ :: (w2 ++ (rest))⟩) :=
    fun p => ih _ _ _ d1 rfl (by simp only [rank]; omega) p _ (.tok (by decide))
  have a1 := fun p k hk => d1.at0 (K := ⟨s1, .dot, e1⟩ :: (w2 ++ (rest))) rfl p k hk
  have b1 := fun p L hk => d1.among0 (K := ⟨s1, .dot, e1⟩ :: (w2 ++ (rest))) rfl p L hk
  have c1 := fun p L hk => d1.among0_false (K := ⟨s1, .dot, e1⟩ :: (w2 ++ (rest))) rfl p L hk
  have g1 := fun K => d1.startOf_app (K := K) rfl
  have e1e := fun p => d1.stop_eq rfl p
  have s1_1 : ∀ p k, (PS.mk p (w1 ++ (⟨s1, .dot, e1⟩ :: (w2 ++ (rest))))).at? 1 k = (PS.mk p (⟨s1, .dot, e1⟩ :: (w2 ++ (rest)))).at? 0 k := fun p k => d1.single_at (K := ⟨s1, .dot, e1⟩ :: (w2 ++ (rest))) rfl p 0 k
  have t1_1 : ∀ p k, (PS.mk p (w1 ++ (⟨s1, .dot, e1⟩ :: (w2 ++ (rest))))).among 1 k = (PS.mk p (⟨s1, .dot, e1⟩ :: (w2 ++ (rest)))).among 0 k := fun p k => d1.single_among (K := ⟨s1, .dot, e1⟩ :: (w2 ++ (rest))) rfl p 0 k
  have s1_2 : ∀ p k, (PS.mk p (w1 ++ (⟨s1, .dot, e1⟩ :: (w2 ++ (rest))))).at? 2 k = (PS.mk p (⟨s1, .dot, e1⟩ :: (w2 ++ (rest)))).at? 1 k := fun p k => d1.single_at (K := ⟨s1, .dot, e1⟩ :: (w2 ++ (rest))) rfl p 1 k
  have t1_2 : ∀ p k, (PS.mk p (w1 ++ (⟨s1, .dot, e1⟩ :: (w2 ++ (rest))))).among 2 k = (PS.mk p (⟨s1, .dot, e1⟩ :: (w2 ++ (rest)))).among 1 k := fun p k => d1.single_among (K := ⟨s1, .dot, e1⟩ :: (w2 ++ (rest))) rfl p 1 k
  have s1_3 : ∀ p k, (PS.mk p (w1 ++ (⟨s1, .dot, e1⟩ :: (w2 ++ (rest))))).at? 3 k = (PS.mk p (⟨s1, .dot, e1⟩ :: (w2 ++ (rest)))).at? 2 k := fun p k => d1.single_at (K := ⟨s1, .dot, e1⟩ :: (w2 ++ (rest))) rfl p 2 k
  have t1_3 : ∀ p k, (PS.mk p (w1 ++ (⟨s1, .dot, e1⟩ :: (w2 ++ (rest))))).among 3 k = (PS.mk p (⟨s1, .dot, e1⟩ :: (w2 ++ (rest)))).among 2 k := fun p k => d1.single_among (K := ⟨s1, .dot, e1⟩ :: (w2 ++ (rest))) rfl p 2 k
  have s1_4 : ∀ p k, (PS.mk p (w1 ++ (⟨s1, .dot, e1⟩ :: (w2 ++ (rest))))).at? 4 k = (PS.mk p (⟨s1, .dot, e1⟩ :: (w2 ++ (rest)))).at? 3 k := fun p k => d1.single_at (K := ⟨s1, .dot, e1⟩ :: (w2 ++ (rest))) rfl p 3 k
  have t1_4 : ∀ p k, (PS.mk p (w1 ++ (⟨s1, .dot, e1⟩ :: (w2 ++ (rest))))).among 4 k = (PS.mk p (⟨s1, .dot, e1⟩ :: (w2 ++ (rest)))).among 3 k := fun p k => d1.single_among (K := ⟨s1, .dot, e1⟩ :: (w2 ++ (rest))) rfl p 3 k
  have r2 : ∀ pp, parse fu .regularId ⟨pp, w2 ++ (rest)⟩ = some (r, ⟨stopFrom pp w2, rest⟩) :=
    fun p => ih _ _ _ d2 rfl (by simp only [rank]; omega) p _ (hF.mono (by decide))
  have a2 := fun p k hk => d2.at0 (K := rest) rfl p k hk
  have b2 := fun p L hk => d2.among0 (K := rest) rfl p L hk
  have c2 := fun p L hk => d2.among0_false (K := rest) rfl p L hk
  have g2 := fun K => d2.startOf_app (K := K) rfl
  have e2e := fun p => d2.stop_eq rfl p
  have s2_1 : ∀ p k, (PS.mk p (w2 ++ (rest))).at? 1 k = (PS.mk p (rest)).at? 0 k := fun p k => d2.single_at (K := rest) rfl p 0 k
  have t2_1 : ∀ p k, (PS.mk p (w2 ++ (rest))).among 1 k = (PS.mk p (rest)).among 0 k := fun p k => d2.single_among (K := rest) rfl p 0 k
  have s2_2 : ∀ p k, (PS.mk p (w2 ++ (rest))).at? 2 k = (PS.mk p (rest)).at? 1 k := fun p k => d2.single_at (K := rest) rfl p 1 k
  have t2_2 : ∀ p k, (PS.mk p (w2 ++ (rest))).among 2 k = (PS.mk p (rest)).among 1 k := fun p k => d2.single_among (K := rest) rfl p 1 k
  have s2_3 : ∀ p k, (PS.mk p (w2 ++ (rest))).at? 3 k = (PS.mk p (rest)).at? 2 k := fun p k => d2.single_at (K := rest) rfl p 2 k
  have t2_3 : ∀ p k, (PS.mk p (w2 ++ (rest))).among 3 k = (PS.mk p (rest)).among 2 k := fun p k => d2.single_among (K := rest) rfl p 2 k
  have s2_4 : ∀ p k, (PS.mk p (w2 ++ (rest))).at? 4 k = (PS.mk p (rest)).at? 3 k := fun p k => d2.single_at (K := rest) rfl p 3 k
  have t2_4 : ∀ p k, (PS.mk p (w2 ++ (rest))).among 4 k = (PS.mk p (rest)).among 3 k := fun p k => d2.single_among (K := rest) rfl p 3 k
  have u2 := fun p => d2.at0_true (K := rest) (k := .identifier []) rfl rfl p
  simp (decide := true) [pVarId, expect_cons, PS.wrap, mkW, startOf_cons, stopOf, stopFrom, stopFrom_append, hA, hB, r1, a1, b1, c1, g1, e1e, s1_1, t1_1, s1_2, t1_2, s1_3, t1_3, s1_4, t1_4, r2, a2, b2, c2, g2, e2e, s2_1, t2_1, s2_2, t2_2, s2_3, t2_3, s2_4, t2_4, u2]

set_option autoImplicit true in
theorem c_remGeneric (ih : Comp fu)
    (d1 : Derives .metaId w1 m)
    (d2 : Derives (.star .typeArg) w2 args)
    (heq : w = w1 ++ w2)
    (hl : 32 * w.length + rank .remaining ≤ fu + 1) (hF : Follow (bad .remaining) rest) :
    pRemaining (parse fu) ⟨po, w ++ rest⟩ = some (((mkW w (.genericTypeWithArgs m args)) : Val .remaining), ⟨stopFrom po w, rest⟩) := by
  have l1 := d1.length_pos rfl
  subst heq
  simp only [List.length_append, List.length_cons, List.length_nil, rank] at hl
  have hA := fun p k hk => hF.at p k hk
  have hB := fun p M hM => hF.among (M := M) p hM
  have r1 : ∀ pp, parse fu .metaId ⟨pp, w1 ++ (w2 ++ (rest))⟩ = some (m, ⟨stopFrom pp w1, w2 ++ (rest)⟩) :=
    fun p => ih _ _ _ d1 rfl (by simp only [rank]; omega) p _ (.app' d2 (by decide) (hF.mono (by decide)))
  have a1 := fun p k hk => d1.at0 (K := w2 ++ (rest)) rfl p k hk
  have b1 := fun p L hk => d1.among0 (K := w2 ++ (rest)) rfl p L hk
  have c1 := fun p L hk => d1.among0_false (K := w2 ++ (rest)) rfl p L hk
  have g1 := fun K => d1.startOf_app (K := K) rfl
  have e1e := fun p => d1.stop_eq rfl p
  have v1 := fun p => isAddr_metaId (K := w2 ++ (rest)) d1 p (.app' d2 (by decide) (hF.mono (by decide)))
  have r2 : ∀ pp, parse fu (.star .typeArg) ⟨pp, w2 ++ (rest)⟩ = some (args, ⟨stopFrom pp w2, rest⟩) :=
    fun p => ih _ _ _ d2 rfl (by simp only [rank]; omega) p _ (hF.mono (by decide))
  simp (decide := true) [pRemaining, expect_cons, PS.wrap, mkW, startOf_cons, stopOf, stopFrom, stopFrom_append, hA, hB, r1, a1, b1, c1, g1, e1e, v1, r2]

set_option autoImplicit true in
theorem c_remMap (ih : Comp fu)
    (d1 : Derives .mapKey w1 k)
    (d2 : Derives .mapValue w2 v)
    (heq : w = ⟨s1, .map, e1⟩ :: (w1 ++ w2))
    (hl : 32 * w.length + rank .remaining ≤ fu + 1) (hF : Follow (bad .remaining) rest) :
    pRemaining (parse fu) ⟨po, w ++ rest⟩ = some (((mkW w (.mapType k v)) : Val .remaining), ⟨stopFrom po w, rest⟩) := by
  have l1 := d1.length_pos rfl
  have l2 := d2.length_pos rfl
  subst heq
  simp only [List.length_append, List.length_cons, List.length_nil, rank] at hl
  have hA := fun p k hk => hF.at p k hk
  have hB := fun p M hM => hF.among (M := M) p hM
  have r1 : ∀ pp, parse fu .mapKey ⟨pp, w1 ++ (w2 ++ (rest))⟩ = some (k, ⟨stopFrom pp w1, w2 ++ (rest)⟩) :=
    fun p => ih _ _ _ d1 rfl (by simp only [rank]; omega) p _ (.app d2 (by decide) rfl)
  have a1 := fun p k hk => d1.at0 (K := w2 ++ (rest)) rfl p k hk
  have b1 := fun p L hk => d1.among0 (K := w2 ++ (rest)) rfl p L hk
  have c1 := fun p L hk => d1.among0_false (K := w2 ++ (rest)) rfl p L hk
  have g1 := fun K => d1.startOf_app (K := K) rfl
  have e1e := fun p => d1.stop_eq rfl p
  have r2 : ∀ pp, parse fu .mapValue ⟨pp, w2 ++ (rest)⟩ = some (v, ⟨stopFrom pp w2, rest⟩) :=
    fun p => ih _ _ _ d2 rfl (by simp only [rank]; omega) p _ (hF.mono (by decide))
  have a2 := fun p k hk => d2.at0 (K := rest) rfl p k hk
  have b2 := fun p L hk => d2.among0 (K := rest) rfl p L hk
  have c2 := fun p L hk => d2.among0_false (K := rest) rfl p L hk
  have g2 := fun K => d2.startOf_app (K := K) rfl
  have e2e := fun p => d2.stop_eq rfl p
  simp (decide := true) [pRemaining, expect_cons, PS.wrap, mkW, startOf_cons, stopOf, stopFrom, stopFrom_append, hA, hB, r1, a1, b1, c1, g1, e1e, r2, a2, b2, c2, g2, e2e]

set_option autoImplicit true in
theorem c_remParen (ih : Comp fu)
    (d1 : Derives .scillaType w1 t)
    (heq : w = ⟨s1, .openParen, e1⟩ :: (w1 ++ [⟨s2, .closeParen, e2⟩]))
    (hl : 32 * w.length + rank .remaining ≤ fu + 1) (hF : Follow (bad .remaining) rest) :
    pRemaining (parse fu) ⟨po, w ++ rest⟩ = some (((mkW w (.enclosedType t)) : Val .remaining), ⟨stopFrom po w, rest⟩) := by
  have l1 := d1.length_pos rfl
  subst heq
  simp only [List.length_append, List.length_cons, List.length_nil, rank] at hl
  have hA := fun p k hk => hF.at p k hk
  have hB := fun p M hM => hF.among (M := M) p hM
  have r1 : ∀ pp, parse fu .scillaType ⟨pp, w1 ++ (⟨s2, .closeParen, e2⟩ :: (rest))⟩ = some (t, ⟨stopFrom pp w1, ⟨s2, .closeParen, e2⟩ :: (rest)⟩) :=
    fun p => ih _ _ _ d1 rfl (by simp only [rank]; omega) p _ (.tok (by decide))
  have a1 := fun p k hk => d1.at0 (K := ⟨s2, .closeParen, e2⟩ :: (rest)) rfl p k hk
  have b1 := fun p L hk => d1.among0 (K := ⟨s2, .closeParen, e2⟩ :: (rest)) rfl p L hk
  have c1 := fun p L hk => d1.among0_false (K := ⟨s2, .closeParen, e2⟩ :: (rest)) rfl p L hk
  have g1 := fun K => d1.startOf_app (K := K) rfl
  have e1e := fun p => d1.stop_eq rfl p
  simp (decide := true) [pRemaining, expect_cons, PS.wrap, mkW, startOf_cons, stopOf, stopFrom, stopFrom_append, hA, hB, r1, a1, b1, c1, g1, e1e]

set_option autoImplicit true in
theorem c_remAddress (ih : Comp fu)
    (d1 : Derives .addressType w a)
    (hl : 32 * w.length + rank .remaining ≤ fu + 1) (hF : Follow (bad .remaining) rest) :
    pRemaining (parse fu) ⟨po, w ++ rest⟩ = some (((mkW w (.scillaAddresseType a)) : Val .remaining), ⟨stopFrom po w, rest⟩) := by
  have l1 := d1.length_pos rfl
  simp only [List.length_append, List.length_cons, List.length_nil, rank] at hl
  have hA := fun p k hk => hF.at p k hk
  have hB := fun p M hM => hF.among (M := M) p hM
  have r1 : ∀ pp, parse fu .addressType ⟨pp, w ++ (rest)⟩ = some (a, ⟨stopFrom pp w, rest⟩) :=
    fun p => ih _ _ _ d1 rfl (by simp only [rank]; omega) p _ (hF.mono (by decide))
  have a1 := fun p k hk => d1.at0 (K := rest) rfl p k hk
  have b1 := fun p L hk => d1.among0 (K := rest) rfl p L hk
  have c1 := fun p L hk => d1.among0_false (K := rest) rfl p L hk
  have g1 := fun K => d1.startOf_app (K := K) rfl
  have e1e := fun p => d1.stop_eq rfl p
  have v1 := fun p => isAddr_addressType (K := rest) d1 p
  simp (decide := true) [pRemaining, expect_cons, PS.wrap, mkW, startOf_cons, stopOf, stopFrom, stopFrom_append, hA, hB, r1, a1, b1, c1, g1, e1e, v1]

set_option autoImplicit true in
theorem c_remForall (ih : Comp fu)
    (d1 : Derives .templateId w1 v)
    (d2 : Derives .remaining w2 t)
    (heq : w = ⟨s1, .forall_, e1⟩ :: (w1 ++ ⟨s2, .dot, e2⟩ :: w2))
    (hl : 32 * w.length + rank .remaining ≤ fu + 1) (hF : Follow (bad .remaining) rest) :
    pRemaining (parse fu) ⟨po, w ++ rest⟩ = some (((mkW w (.polyFunctionType v t)) : Val .remaining), ⟨stopFrom po w, rest⟩) := by
  have l1 := d1.length_pos rfl
  have l2 := d2.length_pos rfl
  subst heq
  simp only [List.length_append, List.length_cons, List.length_nil, rank] at hl
  have hA := fun p k hk => hF.at p k hk
  have hB := fun p M hM => hF.among (M := M) p hM
  have r1 : ∀ pp, parse fu .templateId ⟨pp, w1 ++ (⟨s2, .dot, e2⟩ :: (w2 ++ (rest)))⟩ = some (v, ⟨stopFrom pp w1, ⟨s2, .dot, e2⟩ :: (w2 ++ (rest))⟩) :=
    fun p => ih _ _ _ d1 rfl (by simp only [rank]; omega) p _ (.tok (by decide))
  have a1 := fun p k hk => d1.at0 (K := ⟨s2, .dot, e2⟩ :: (w2 ++ (rest))) rfl p k hk
  have b1 := fun p L hk => d1.among0 (K := ⟨s2, .dot, e2⟩ :: (w2 ++ (rest))) rfl p L hk
  have c1 := fun p L hk => d1.among0_false (K := ⟨s2, .dot, e2⟩ :: (w2 ++ (rest))) rfl p L hk
  have g1 := fun K => d1.startOf_app (K := K) rfl
  have e1e := fun p => d1.stop_eq rfl p
  have s1_1 : ∀ p k, (PS.mk p (w1 ++ (⟨s2, .dot, e2⟩ :: (w2 ++ (rest))))).at? 1 k = (PS.mk p (⟨s2, .dot, e2⟩ :: (w2 ++ (rest)))).at? 0 k := fun p k => d1.single_at (K := ⟨s2, .dot, e2⟩ :: (w2 ++ (rest))) rfl p 0 k
  have t1_1 : ∀ p k, (PS.mk p (w1 ++ (⟨s2, .dot, e2⟩ :: (w2 ++ (rest))))).among 1 k = (PS.mk p (⟨s2, .dot, e2⟩ :: (w2 ++ (rest)))).among 0 k := fun p k => d1.single_among (K := ⟨s2, .dot, e2⟩ :: (w2 ++ (rest))) rfl p 0 k
  have s1_2 : ∀ p k, (PS.mk p (w1 ++ (⟨s2, .dot, e2⟩ :: (w2 ++ (rest))))).at? 2 k = (PS.mk p (⟨s2, .dot, e2⟩ :: (w2 ++ (rest)))).at? 1 k := fun p k => d1.single_at (K := ⟨s2, .dot, e2⟩ :: (w2 ++ (rest))) rfl p 1 k
  have t1_2 : ∀ p k, (PS.mk p (w1 ++ (⟨s2, .dot, e2⟩ :: (w2 ++ (rest))))).among 2 k = (PS.mk p (⟨s2, .dot, e2⟩ :: (w2 ++ (rest)))).among 1 k := fun p k => d1.single_among (K := ⟨s2, .dot, e2⟩ :: (w2 ++ (rest))) rfl p 1 k
  have s1_3 : ∀ p k, (PS.mk p (w1 ++ (⟨s2, .dot, e2⟩ :: (w2 ++ (rest))))).at? 3 k = (PS.mk p (⟨s2, .dot, e2⟩ :: (w2 ++ (rest)))).at? 2 k := fun p k => d1.single_at (K := ⟨s2, .dot, e2⟩ :: (w2 ++ (rest))) rfl p 2 k
  have t1_3 : ∀ p k, (PS.mk p (w1 ++ (⟨s2, .dot, e2⟩ :: (w2 ++ (rest))))).among 3 k = (PS.mk p (⟨s2, .dot, e2⟩ :: (w2 ++ (rest)))).among 2 k := fun p k => d1.single_among (K := ⟨s2, .dot, e2⟩ :: (w2 ++ (rest))) rfl p 2 k
  have s1_4 : ∀ p k, (PS.mk p (w1 ++ (⟨s2, .dot, e2⟩ :: (w2 ++ (rest))))).at? 4 k = (PS.mk p (⟨s2, .dot, e2⟩ :: (w2 ++ (rest)))).at? 3 k := fun p k => d1.single_at (K := ⟨s2, .dot, e2⟩ :: (w2 ++ (rest))) rfl p 3 k
  have t1_4 : ∀ p k, (PS.mk p (w1 ++ (⟨s2, .dot, e2⟩ :: (w2 ++ (rest))))).among 4 k = (PS.mk p (⟨s2, .dot, e2⟩ :: (w2 ++ (rest)))).among 3 k := fun p k => d1.single_among (K := ⟨s2, .dot, e2⟩ :: (w2 ++ (rest))) rfl p 3 k
  have u1 := fun p => d1.at0_true (K := ⟨s2, .dot, e2⟩ :: (w2 ++ (rest))) (k := .templateIdentifier []) rfl rfl p
  have r2 : ∀ pp, parse fu .remaining ⟨pp, w2 ++ (rest)⟩ = some (t, ⟨stopFrom pp w2, rest⟩) :=
    fun p => ih _ _ _ d2 rfl (by simp only [rank]; omega) p _ (hF.mono (by decide))
  have a2 := fun p k hk => d2.at0 (K := rest) rfl p k hk
  have b2 := fun p L hk => d2.among0 (K := rest) rfl p L hk
  have c2 := fun p L hk => d2.among0_false (K := rest) rfl p L hk
  have g2 := fun K => d2.startOf_app (K := K) rfl
  have e2e := fun p => d2.stop_eq rfl p
  simp (decide := true) [pRemaining, expect_cons, PS.wrap, mkW, startOf_cons, stopOf, stopFrom, stopFrom_append, hA, hB, r1, a1, b1, c1, g1, e1e, s1_1, t1_1, s1_2, t1_2, s1_3, t1_3, s1_4, t1_4, u1, r2, a2, b2, c2, g2, e2e]

set_option autoImplicit true in
theorem c_remTypeVar (ih : Comp fu)
    (d1 : Derives .templateId w v)
    (hl : 32 * w.length + rank .remaining ≤ fu + 1) (hF : Follow (bad .remaining) rest) :
    pRemaining (parse fu) ⟨po, w ++ rest⟩ = some (((mkW w (.typeVarType v)) : Val .remaining), ⟨stopFrom po w, rest⟩) := by
  have l1 := d1.length_pos rfl
  simp only [List.length_append, List.length_cons, List.length_nil, rank] at hl
  have hA := fun p k hk => hF.at p k hk
  have hB := fun p M hM => hF.among (M := M) p hM
  have r1 : ∀ pp, parse fu .templateId ⟨pp, w ++ (rest)⟩ = some (v, ⟨stopFrom pp w, rest⟩) :=
    fun p => ih _ _ _ d1 rfl (by simp only [rank]; omega) p _ (hF.mono (by decide))
  have a1 := fun p k hk => d1.at0 (K := rest) rfl p k hk
  have b1 := fun p L hk => d1.among0 (K := rest) rfl p L hk
  have c1 := fun p L hk => d1.among0_false (K := rest) rfl p L hk
  have g1 := fun K => d1.startOf_app (K := K) rfl
  have e1e := fun p => d1.stop_eq rfl p
  have s1_1 : ∀ p k, (PS.mk p (w ++ (rest))).at? 1 k = (PS.mk p (rest)).at? 0 k := fun p k => d1.single_at (K := rest) rfl p 0 k
  have t1_1 : ∀ p k, (PS.mk p (w ++ (rest))).among 1 k = (PS.mk p (rest)).among 0 k := fun p k => d1.single_among (K := rest) rfl p 0 k
  have s1_2 : ∀ p k, (PS.mk p (w ++ (rest))).at? 2 k = (PS.mk p (rest)).at? 1 k := fun p k => d1.single_at (K := rest) rfl p 1 k
  have t1_2 : ∀ p k, (PS.mk p (w ++ (rest))).among 2 k = (PS.mk p (rest)).among 1 k := fun p k => d1.single_among (K := rest) rfl p 1 k
  have s1_3 : ∀ p k, (PS.mk p (w ++ (rest))).at? 3 k = (PS.mk p (rest)).at? 2 k := fun p k => d1.single_at (K := rest) rfl p 2 k
  have t1_3 : ∀ p k, (PS.mk p (w ++ (rest))).among 3 k = (PS.mk p (rest)).among 2 k := fun p k => d1.single_among (K := rest) rfl p 2 k
  have s1_4 : ∀ p k, (PS.mk p (w ++ (rest))).at? 4 k = (PS.mk p (rest)).at? 3 k := fun p k => d1.single_at (K := rest) rfl p 3 k
  have t1_4 : ∀ p k, (PS.mk p (w ++ (rest))).among 4 k = (PS.mk p (rest)).among 3 k := fun p k => d1.single_among (K := rest) rfl p 3 k
  have u1 := fun p => d1.at0_true (K := rest) (k := .templateIdentifier []) rfl rfl p
  simp (decide := true) [pRemaining, expect_cons, PS.wrap, mkW, startOf_cons, stopOf, stopFrom, stopFrom_append, hA, hB, r1, a1, b1, c1, g1, e1e, s1_1, t1_1, s1_2, t1_2, s1_3, t1_3, s1_4, t1_4, u1]

set_option autoImplicit true in
theorem c_argParen (ih : Comp fu)
    (d1 : Derives .scillaType w1 t)
    (heq : w = ⟨s1, .openParen, e1⟩ :: (w1 ++ [⟨s2, .closeParen, e2⟩]))
    (hl : 32 * w.length + rank .typeArg ≤ fu + 1) (hF : Follow (bad .typeArg) rest) :
    pTypeArg (parse fu) ⟨po, w ++ rest⟩ = some (((mkW w (.enclosedTypeArgument t)) : Val .typeArg), ⟨stopFrom po w, rest⟩) := by
  have l1 := d1.length_pos rfl
  subst heq
  simp only [List.length_append, List.length_cons, List.length_nil, rank] at hl
  have hA := fun p k hk => hF.at p k hk
  have hB := fun p M hM => hF.among (M := M) p hM
  have r1 : ∀ pp, parse fu .scillaType ⟨pp, w1 ++ (⟨s2, .closeParen, e2⟩ :: (rest))⟩ = some (t, ⟨stopFrom pp w1, ⟨s2, .closeParen, e2⟩ :: (rest)⟩) :=
    fun p => ih _ _ _ d1 rfl (by simp only [rank]; omega) p _ (.tok (by decide))
  have a1 := fun p k hk => d1.at0 (K := ⟨s2, .closeParen, e2⟩ :: (rest)) rfl p k hk
  have b1 := fun p L hk => d1.among0 (K := ⟨s2, .closeParen, e2⟩ :: (rest)) rfl p L hk
  have c1 := fun p L hk => d1.among0_false (K := ⟨s2, .closeParen, e2⟩ :: (rest)) rfl p L hk
  have g1 := fun K => d1.startOf_app (K := K) rfl
  have e1e := fun p => d1.stop_eq rfl p
  simp (decide := true) [pTypeArg, expect_cons, PS.wrap, mkW, startOf_cons, stopOf, stopFrom, stopFrom_append, hA, hB, r1, a1, b1, c1, g1, e1e]

set_option autoImplicit true in
theorem c_argMeta (ih : Comp fu)
    (d1 : Derives .metaId w m)
    (hl : 32 * w.length + rank .typeArg ≤ fu + 1) (hF : Follow (bad .typeArg) rest) :
    pTypeArg (parse fu) ⟨po, w ++ rest⟩ = some (((mkW w (.genericTypeArgument m)) : Val .typeArg), ⟨stopFrom po w, rest⟩) := by
  have l1 := d1.length_pos rfl
  simp only [List.length_append, List.length_cons, List.length_nil, rank] at hl
  have hA := fun p k hk => hF.at p k hk
  have hB := fun p M hM => hF.among (M := M) p hM
  have r1 : ∀ pp, parse fu .metaId ⟨pp, w ++ (rest)⟩ = some (m, ⟨stopFrom pp w, rest⟩) :=
    fun p => ih _ _ _ d1 rfl (by simp only [rank]; omega) p _ (hF.mono (by decide))
  have a1 := fun p k hk => d1.at0 (K := rest) rfl p k hk
  have b1 := fun p L hk => d1.among0 (K := rest) rfl p L hk
  have c1 := fun p L hk => d1.among0_false (K := rest) rfl p L hk
  have g1 := fun K => d1.startOf_app (K := K) rfl
  have e1e := fun p => d1.stop_eq rfl p
  have v1 := fun p => isAddr_metaId (K := rest) d1 p (hF.mono (by decide))
  simp (decide := true) [pTypeArg, expect_cons, PS.wrap, mkW, startOf_cons, stopOf, stopFrom, stopFrom_append, hA, hB, r1, a1, b1, c1, g1, e1e, v1]

set_option autoImplicit true in
theorem c_argTemplate (ih : Comp fu)
    (d1 : Derives .templateId w v)
    (hl : 32 * w.length + rank .typeArg ≤ fu + 1) (hF : Follow (bad .typeArg) rest) :
    pTypeArg (parse fu) ⟨po, w ++ rest⟩ = some (((mkW w (.templateTypeArgument v)) : Val .typeArg), ⟨stopFrom po w, rest⟩) := by
  have l1 := d1.length_pos rfl
  simp only [List.length_append, List.length_cons, List.length_nil, rank] at hl
  have hA := fun p k hk => hF.at p k hk
  have hB := fun p M hM => hF.among (M := M) p hM
  have r1 : ∀ pp, parse fu .templateId ⟨pp, w ++ (rest)⟩ = some (v, ⟨stopFrom pp w, rest⟩) :=
    fun p => ih _ _ _ d1 rfl (by simp only [rank]; omega) p _ (hF.mono (by decide))
  have a1 := fun p k hk => d1.at0 (K := rest) rfl p k hk
  have b1 := fun p L hk => d1.among0 (K := rest) rfl p L hk
  have c1 := fun p L hk => d1.among0_false (K := rest) rfl p L hk
  have g1 := fun K => d1.startOf_app (K := K) rfl
  have e1e := fun p => d1.stop_eq rfl p
  have s1_1 : ∀ p k, (PS.mk p (w ++ (rest))).at? 1 k = (PS.mk p (rest)).at? 0 k := fun p k => d1.single_at (K := rest) rfl p 0 k
  have t1_1 : ∀ p k, (PS.mk p (w ++ (rest))).among 1 k = (PS.mk p (rest)).among 0 k := fun p k => d1.single_among (K := rest) rfl p 0 k
  have s1_2 : ∀ p k, (PS.mk p (w ++ (rest))).at? 2 k = (PS.mk p (rest)).at? 1 k := fun p k => d1.single_at (K := rest) rfl p 1 k
  have t1_2 : ∀ p k, (PS.mk p (w ++ (rest))).among 2 k = (PS.mk p (rest)).among 1 k := fun p k => d1.single_among (K := rest) rfl p 1 k
  have s1_3 : ∀ p k, (PS.mk p (w ++ (rest))).at? 3 k = (PS.mk p (rest)).at? 2 k := fun p k => d1.single_at (K := rest) rfl p 2 k
  have t1_3 : ∀ p k, (PS.mk p (w ++ (rest))).among 3 k = (PS.mk p (rest)).among 2 k := fun p k => d1.single_among (K := rest) rfl p 2 k
  have s1_4 : ∀ p k, (PS.mk p (w ++ (rest))).at? 4 k = (PS.mk p (rest)).at? 3 k := fun p k => d1.single_at (K := rest) rfl p 3 k
  have t1_4 : ∀ p k, (PS.mk p (w ++ (rest))).among 4 k = (PS.mk p (rest)).among 3 k := fun p k => d1.single_among (K := rest) rfl p 3 k
  have u1 := fun p => d1.at0_true (K := rest) (k := .templateIdentifier []) rfl rfl p
  simp (decide := true) [pTypeArg, expect_cons, PS.wrap, mkW, startOf_cons, stopOf, stopFrom, stopFrom_append, hA, hB, r1, a1, b1, c1, g1, e1e, s1_1, t1_1, s1_2, t1_2, s1_3, t1_3, s1_4, t1_4, u1]

set_option autoImplicit true in
theorem c_argAddress (ih : Comp fu)
    (d1 : Derives .addressType w a)
    (hl : 32 * w.length + rank .typeArg ≤ fu + 1) (hF : Follow (bad .typeArg) rest) :
    pTypeArg (parse fu) ⟨po, w ++ rest⟩ = some (((mkW w (.addressTypeArgument a)) : Val .typeArg), ⟨stopFrom po w, rest⟩) := by
  have l1 := d1.length_pos rfl
  simp only [List.length_append, List.length_cons, List.length_nil, rank] at hl
  have hA := fun p k hk => hF.at p k hk
  have hB := fun p M hM => hF.among (M := M) p hM
  have r1 : ∀ pp, parse fu .addressType ⟨pp, w ++ (rest)⟩ = some (a, ⟨stopFrom pp w, rest⟩) :=
    fun p => ih _ _ _ d1 rfl (by simp only [rank]; omega) p _ (hF.mono (by decide))
  have a1 := fun p k hk => d1.at0 (K := rest) rfl p k hk
  have b1 := fun p L hk => d1.among0 (K := rest) rfl p L hk
  have c1 := fun p L hk => d1.among0_false (K := rest) rfl p L hk
  have g1 := fun K => d1.startOf_app (K := K) rfl
  have e1e := fun p => d1.stop_eq rfl p
  have v1 := fun p => isAddr_addressType (K := rest) d1 p
  simp (decide := true) [pTypeArg, expect_cons, PS.wrap, mkW, startOf_cons, stopOf, stopFrom, stopFrom_append, hA, hB, r1, a1, b1, c1, g1, e1e, v1]

set_option autoImplicit true in
theorem c_argMap (ih : Comp fu)
    (d1 : Derives .mapKey w1 k)
    (d2 : Derives .mapValue w2 v)
    (heq : w = ⟨s1, .map, e1⟩ :: (w1 ++ w2))
    (hl : 32 * w.length + rank .typeArg ≤ fu + 1) (hF : Follow (bad .typeArg) rest) :
    pTypeArg (parse fu) ⟨po, w ++ rest⟩ = some (((mkW w (.mapTypeArgument k v)) : Val .typeArg), ⟨stopFrom po w, rest⟩) := by
  have l1 := d1.length_pos rfl
  have l2 := d2.length_pos rfl
  subst heq
  simp only [List.length_append, List.length_cons, List.length_nil, rank] at hl
  have hA := fun p k hk => hF.at p k hk
  have hB := fun p M hM => hF.among (M := M) p hM
  have r1 : ∀ pp, parse fu .mapKey ⟨pp, w1 ++ (w2 ++ (rest))⟩ = some (k, ⟨stopFrom pp w1, w2 ++ (rest)⟩) :=
    fun p => ih _ _ _ d1 rfl (by simp only [rank]; omega) p _ (.app d2 (by decide) rfl)
  have a1 := fun p k hk => d1.at0 (K := w2 ++ (rest)) rfl p k hk
  have b1 := fun p L hk => d1.among0 (K := w2 ++ (rest)) rfl p L hk
  have c1 := fun p L hk => d1.among0_false (K := w2 ++ (rest)) rfl p L hk
  have g1 := fun K => d1.startOf_app (K := K) rfl
  have e1e := fun p => d1.stop_eq rfl p
  have r2 : ∀ pp, parse fu .mapValue ⟨pp, w2 ++ (rest)⟩ = some (v, ⟨stopFrom pp w2, rest⟩) :=
    fun p => ih _ _ _ d2 rfl (by simp only [rank]; omega) p _ (hF.mono (by decide))
  have a2 := fun p k hk => d2.at0 (K := rest) rfl p k hk
  have b2 := fun p L hk => d2.among0 (K := rest) rfl p L hk
  have c2 := fun p L hk => d2.among0_false (K := rest) rfl p L hk
  have g2 := fun K => d2.startOf_app (K := K) rfl
  have e2e := fun p => d2.stop_eq rfl p
  simp (decide := true) [pTypeArg, expect_cons, PS.wrap, mkW, startOf_cons, stopOf, stopFrom, stopFrom_append, hA, hB, r1, a1, b1, c1, g1, e1e, r2, a2, b2, c2, g2, e2e]

set_option autoImplicit true in
theorem c_addrEmpty (ih : Comp fu)
    (d1 : Derives .typeName w1 n)
    (heq : w = w1 ++ [⟨s1, .with_, e1⟩, ⟨s2, .end_, e2⟩])
    (hl : 32 * w.length + rank .addressType ≤ fu + 1) (hF : Follow (bad .addressType) rest) :
    pAddressType (parse fu) ⟨po, w ++ rest⟩ = some (((mkW w (.mk n (mkW w []) [])) : Val .addressType), ⟨stopFrom po w, rest⟩) := by
  have l1 := d1.length_pos rfl
  subst heq
  simp only [List.length_append, List.length_cons, List.length_nil, rank] at hl
  have hA := fun p k hk => hF.at p k hk
  have hB := fun p M hM => hF.among (M := M) p hM
  have r1 : ∀ pp, parse fu .typeName ⟨pp, w1 ++ (⟨s1, .with_, e1⟩ :: (⟨s2, .end_, e2⟩ :: (rest)))⟩ = some (n, ⟨stopFrom pp w1, ⟨s1, .with_, e1⟩ :: (⟨s2, .end_, e2⟩ :: (rest))⟩) :=
    fun p => ih _ _ _ d1 rfl (by simp only [rank]; omega) p _ (.tok (by decide))
  have a1 := fun p k hk => d1.at0 (K := ⟨s1, .with_, e1⟩ :: (⟨s2, .end_, e2⟩ :: (rest))) rfl p k hk
  have b1 := fun p L hk => d1.among0 (K := ⟨s1, .with_, e1⟩ :: (⟨s2, .end_, e2⟩ :: (rest))) rfl p L hk
  have c1 := fun p L hk => d1.among0_false (K := ⟨s1, .with_, e1⟩ :: (⟨s2, .end_, e2⟩ :: (rest))) rfl p L hk
  have g1 := fun K => d1.startOf_app (K := K) rfl
  have e1e := fun p => d1.stop_eq rfl p
  have s1_1 : ∀ p k, (PS.mk p (w1 ++ (⟨s1, .with_, e1⟩ :: (⟨s2, .end_, e2⟩ :: (rest))))).at? 1 k = (PS.mk p (⟨s1, .with_, e1⟩ :: (⟨s2, .end_, e2⟩ :: (rest)))).at? 0 k := fun p k => d1.single_at (K := ⟨s1, .with_, e1⟩ :: (⟨s2, .end_, e2⟩ :: (rest))) rfl p 0 k
  have t1_1 : ∀ p k, (PS.mk p (w1 ++ (⟨s1, .with_, e1⟩ :: (⟨s2, .end_, e2⟩ :: (rest))))).among 1 k = (PS.mk p (⟨s1, .with_, e1⟩ :: (⟨s2, .end_, e2⟩ :: (rest)))).among 0 k := fun p k => d1.single_among (K := ⟨s1, .with_, e1⟩ :: (⟨s2, .end_, e2⟩ :: (rest))) rfl p 0 k
  have s1_2 : ∀ p k, (PS.mk p (w1 ++ (⟨s1, .with_, e1⟩ :: (⟨s2, .end_, e2⟩ :: (rest))))).at? 2 k = (PS.mk p (⟨s1, .with_, e1⟩ :: (⟨s2, .end_, e2⟩ :: (rest)))).at? 1 k := fun p k => d1.single_at (K := ⟨s1, .with_, e1⟩ :: (⟨s2, .end_, e2⟩ :: (rest))) rfl p 1 k
  have t1_2 : ∀ p k, (PS.mk p (w1 ++ (⟨s1, .with_, e1⟩ :: (⟨s2, .end_, e2⟩ :: (rest))))).among 2 k = (PS.mk p (⟨s1, .with_, e1⟩ :: (⟨s2, .end_, e2⟩ :: (rest)))).among 1 k := fun p k => d1.single_among (K := ⟨s1, .with_, e1⟩ :: (⟨s2, .end_, e2⟩ :: (rest))) rfl p 1 k
  have s1_3 : ∀ p k, (PS.mk p (w1 ++ (⟨s1, .with_, e1⟩ :: (⟨s2, .end_, e2⟩ :: (rest))))).at? 3 k = (PS.mk p (⟨s1, .with_, e1⟩ :: (⟨s2, .end_, e2⟩ :: (rest)))).at? 2 k := fun p k => d1.single_at (K := ⟨s1, .with_, e1⟩ :: (⟨s2, .end_, e2⟩ :: (rest))) rfl p 2 k
  have t1_3 : ∀ p k, (PS.mk p (w1 ++ (⟨s1, .with_, e1⟩ :: (⟨s2, .end_, e2⟩ :: (rest))))).among 3 k = (PS.mk p (⟨s1, .with_, e1⟩ :: (⟨s2, .end_, e2⟩ :: (rest)))).among 2 k := fun p k => d1.single_among (K := ⟨s1, .with_, e1⟩ :: (⟨s2, .end_, e2⟩ :: (rest))) rfl p 2 k
  have s1_4 : ∀ p k, (PS.mk p (w1 ++ (⟨s1, .with_, e1⟩ :: (⟨s2, .end_, e2⟩ :: (rest))))).at? 4 k = (PS.mk p (⟨s1, .with_, e1⟩ :: (⟨s2, .end_, e2⟩ :: (rest)))).at? 3 k := fun p k => d1.single_at (K := ⟨s1, .with_, e1⟩ :: (⟨s2, .end_, e2⟩ :: (rest))) rfl p 3 k
  have t1_4 : ∀ p k, (PS.mk p (w1 ++ (⟨s1, .with_, e1⟩ :: (⟨s2, .end_, e2⟩ :: (rest))))).among 4 k = (PS.mk p (⟨s1, .with_, e1⟩ :: (⟨s2, .end_, e2⟩ :: (rest)))).among 3 k := fun p k => d1.single_among (K := ⟨s1, .with_, e1⟩ :: (⟨s2, .end_, e2⟩ :: (rest))) rfl p 3 k
  simp (decide := true) [pAddressType, expect_cons, PS.wrap, mkW, startOf_cons, stopOf, stopFrom, stopFrom_append, hA, hB, r1, a1, b1, c1, g1, e1e, s1_1, t1_1, s1_2, t1_2, s1_3, t1_3, s1_4, t1_4]

set_option autoImplicit true in
theorem c_addrContract (ih : Comp fu)
    (d1 : Derives .typeName w1 n)
    (d2 : Derives (.opt .addressFieldList) w2 fs)
    (heq : w = w1 ++ ⟨s1, .with_, e1⟩ :: ⟨s2, .contract, e2⟩ :: (w2 ++ [⟨s3, .end_, e3⟩]))
    (hl : 32 * w.length + rank .addressType ≤ fu + 1) (hF : Follow (bad .addressType) rest) :
    pAddressType (parse fu) ⟨po, w ++ rest⟩ = some (((mkW w (.mk n (mkW w (str! "contract")) (fs.getD []))) : Val .addressType), ⟨stopFrom po w, rest⟩) := by
  have l1 := d1.length_pos rfl
  subst heq
  simp only [List.length_append, List.length_cons, List.length_nil, rank] at hl
  have hA := fun p k hk => hF.at p k hk
  have hB := fun p M hM => hF.among (M := M) p hM
  have r1 : ∀ pp, parse fu .typeName ⟨pp, w1 ++ (⟨s1, .with_, e1⟩ :: (⟨s2, .contract, e2⟩ :: (w2 ++ (⟨s3, .end_, e3⟩ :: (rest)))))⟩ = some (n, ⟨stopFrom pp w1, ⟨s1, .with_, e1⟩ :: (⟨s2, .contract, e2⟩ :: (w2 ++ (⟨s3, .end_, e3⟩ :: (rest))))⟩) :=
    fun p => ih _ _ _ d1 rfl (by simp only [rank]; omega) p _ (.tok (by decide))
  have a1 := fun p k hk => d1.at0 (K := ⟨s1, .with_, e1⟩ :: (⟨s2, .contract, e2⟩ :: (w2 ++ (⟨s3, .end_, e3⟩ :: (rest))))) rfl p k hk
  have b1 := fun p L hk => d1.among0 (K := ⟨s1, .with_, e1⟩ :: (⟨s2, .contract, e2⟩ :: (w2 ++ (⟨s3, .end_, e3⟩ :: (rest))))) rfl p L hk
  have c1 := fun p L hk => d1.among0_false (K := ⟨s1, .with_, e1⟩ :: (⟨s2, .contract, e2⟩ :: (w2 ++ (⟨s3, .end_, e3⟩ :: (rest))))) rfl p L hk
  have g1 := fun K => d1.startOf_app (K := K) rfl
  have e1e := fun p => d1.stop_eq rfl p
  have s1_1 : ∀ p k, (PS.mk p (w1 ++ (⟨s1, .with_, e1⟩ :: (⟨s2, .contract, e2⟩ :: (w2 ++ (⟨s3, .end_, e3⟩ :: (rest))))))).at? 1 k = (PS.mk p (⟨s1, .with_, e1⟩ :: (⟨s2, .contract, e2⟩ :: (w2 ++ (⟨s3, .end_, e3⟩ :: (rest)))))).at? 0 k := fun p k => d1.single_at (K := ⟨s1, .with_, e1⟩ :: (⟨s2, .contract, e2⟩ :: (w2 ++ (⟨s3, .end_, e3⟩ :: (rest))))) rfl p 0 k
  have t1_1 : ∀ p k, (PS.mk p (w1 ++ (⟨s1, .with_, e1⟩ :: (⟨s2, .contract, e2⟩ :: (w2 ++ (⟨s3, .end_, e3⟩ :: (rest))))))).among 1 k = (PS.mk p (⟨s1, .with_, e1⟩ :: (⟨s2, .contract, e2⟩ :: (w2 ++ (⟨s3, .end_, e3⟩ :: (rest)))))).among 0 k := fun p k => d1.single_among (K := ⟨s1, .with_, e1⟩ :: (⟨s2, .contract, e2⟩ :: (w2 ++ (⟨s3, .end_, e3⟩ :: (rest))))) rfl p 0 k
  have s1_2 : ∀ p k, (PS.mk p (w1 ++ (⟨s1, .with_, e1⟩ :: (⟨s2, .contract, e2⟩ :: (w2 ++ (⟨s3, .end_, e3⟩ :: (rest))))))).at? 2 k = (PS.mk p (⟨s1, .with_, e1⟩ :: (⟨s2, .contract, e2⟩ :: (w2 ++ (⟨s3, .end_, e3⟩ :: (rest)))))).at? 1 k := fun p k => d1.single_at (K := ⟨s1, .with_, e1⟩ :: (⟨s2, .contract, e2⟩ :: (w2 ++ (⟨s3, .end_, e3⟩ :: (rest))))) rfl p 1 k
  have t1_2 : ∀ p k, (PS.mk p (w1 ++ (⟨s1, .with_, e1⟩ :: (⟨s2, .contract, e2⟩ :: (w2 ++ (⟨s3, .end_, e3⟩ :: (rest))))))).among 2 k = (PS.mk p (⟨s1, .with_, e1⟩ :: (⟨s2, .contract, e2⟩ :: (w2 ++ (⟨s3, .end_, e3⟩ :: (rest)))))).among 1 k := fun p k => d1.single_among (K := ⟨s1, .with_, e1⟩ :: (⟨s2, .contract, e2⟩ :: (w2 ++ (⟨s3, .end_, e3⟩ :: (rest))))) rfl p 1 k
  have s1_3 : ∀ p k, (PS.mk p (w1 ++ (⟨s1, .with_, e1⟩ :: (⟨s2, .contract, e2⟩ :: (w2 ++ (⟨s3, .end_, e3⟩ :: (rest))))))).at? 3 k = (PS.mk p (⟨s1, .with_, e1⟩ :: (⟨s2, .contract, e2⟩ :: (w2 ++ (⟨s3, .end_, e3⟩ :: (rest)))))).at? 2 k := fun p k => d1.single_at (K := ⟨s1, .with_, e1⟩ :: (⟨s2, .contract, e2⟩ :: (w2 ++ (⟨s3, .end_, e3⟩ :: (rest))))) rfl p 2 k
  have t1_3 : ∀ p k, (PS.mk p (w1 ++ (⟨s1, .with_, e1⟩ :: (⟨s2, .contract, e2⟩ :: (w2 ++ (⟨s3, .end_, e3⟩ :: (rest))))))).among 3 k = (PS.mk p (⟨s1, .with_, e1⟩ :: (⟨s2, .contract, e2⟩ :: (w2 ++ (⟨s3, .end_, e3⟩ :: (rest)))))).among 2 k := fun p k => d1.single_among (K := ⟨s1, .with_, e1⟩ :: (⟨s2, .contract, e2⟩ :: (w2 ++ (⟨s3, .end_, e3⟩ :: (rest))))) rfl p 2 k
  have s1_4 : ∀ p k, (PS.mk p (w1 ++ (⟨s1, .with_, e1⟩ :: (⟨s2, .contract, e2⟩ :: (w2 ++ (⟨s3, .end_, e3⟩ :: (rest))))))).at? 4 k = (PS.mk p (⟨s1, .with_, e1⟩ :: (⟨s2, .contract, e2⟩ :: (w2 ++ (⟨s3, .end_, e3⟩ :: (rest)))))).at? 3 k := fun p k => d1.single_at (K := ⟨s1, .with_, e1⟩ :: (⟨s2, .contract, e2⟩ :: (w2 ++ (⟨s3, .end_, e3⟩ :: (rest))))) rfl p 3 k
  have t1_4 : ∀ p k, (PS.mk p (w1 ++ (⟨s1, .with_, e1⟩ :: (⟨s2, .contract, e2⟩ :: (w2 ++ (⟨s3, .end_, e3⟩ :: (rest))))))).among 4 k = (PS.mk p (⟨s1, .with_, e1⟩ :: (⟨s2, .contract, e2⟩ :: (w2 ++ (⟨s3, .end_, e3⟩ :: (rest)))))).among 3 k := fun p k => d1.single_among (K := ⟨s1, .with_, e1⟩ :: (⟨s2, .contract, e2⟩ :: (w2 ++ (⟨s3, .end_, e3⟩ :: (rest))))) rfl p 3 k
  have r2 : ∀ pp, parse fu (.opt .addressFieldList) ⟨pp, w2 ++ (⟨s3, .end_, e3⟩ :: (rest))⟩ = some (fs, ⟨stopFrom pp w2, ⟨s3, .end_, e3⟩ :: (rest)⟩) :=
    fun p => ih _ _ _ d2 rfl (by simp only [rank]; omega) p _ (.tok (by decide))
  simp (decide := true) [pAddressType, expect_cons, PS.wrap, mkW, startOf_cons, stopOf, stopFrom, stopFrom_append, hA, hB, r1, a1, b1, c1, g1, e1e, s1_1, t1_1, s1_2, t1_2, s1_3, t1_3, s1_4, t1_4, r2]

set_option autoImplicit true in
theorem c_addrLibrary (ih : Comp fu)
    (d1 : Derives .typeName w1 n)
    (heq : w = w1 ++ [⟨s1, .with_, e1⟩, ⟨s2, .library, e2⟩, ⟨s3, .end_, e3⟩])
    (hl : 32 * w.length + rank .addressType ≤ fu + 1) (hF : Follow (bad .addressType) rest) :
    pAddressType (parse fu) ⟨po, w ++ rest⟩ = some (((mkW w (.mk n (mkW w (str! "library")) [])) : Val .addressType), ⟨stopFrom po w, rest⟩) := by
  have l1 := d1.length_pos rfl
  subst heq
  simp only [List.length_append, List.length_cons, List.length_nil, rank] at hl
  have hA := fun p k hk => hF.at p k hk
  have hB := fun p M hM => hF.among (M := M) p hM
  have r1 : ∀ pp, parse fu .typeName ⟨pp, w1 ++ (⟨s1, .with_, e1⟩ :: (⟨s2, .library, e2⟩ :: (⟨s3, .end_, e3⟩ :: (rest))))⟩ = some (n, ⟨stopFrom pp w1, ⟨s1, .with_, e1⟩ :: (⟨s2, .library, e2⟩ :: (⟨s3, .end_, e3⟩ :: (rest)))⟩) :=
    fun p => ih _ _ _ d1 rfl (by simp only [rank]; omega) p _ (.tok (by decide))
  have a1 := fun p k hk => d1.at0 (K := ⟨s1, .with_, e1⟩ :: (⟨s2, .library, e2⟩ :: (⟨s3, .end_, e3⟩ :: (rest)))) rfl p k hk
  have b1 := fun p L hk => d1.among0 (K := ⟨s1, .with_, e1⟩ :: (⟨s2, .library, e2⟩ :: (⟨s3, .end_, e3⟩ :: (rest)))) rfl p L hk
  have c1 := fun p L hk => d1.among0_false (K := ⟨s1, .with_, e1⟩ :: (⟨s2, .library, e2⟩ :: (⟨s3, .end_, e3⟩ :: (rest)))) rfl p L hk
  have g1 := fun K => d1.startOf_app (K := K) rfl
  have e1e := fun p => d1.stop_eq rfl p
  have s1_1 : ∀ p k, (PS.mk p (w1 ++ (⟨s1, .with_, e1⟩ :: (⟨s2, .library, e2⟩ :: (⟨s3, .end_, e3⟩ :: (rest)))))).at? 1 k = (PS.mk p (⟨s1, .with_, e1⟩ :: (⟨s2, .library, e2⟩ :: (⟨s3, .end_, e3⟩ :: (rest))))).at? 0 k := fun p k => d1.single_at (K := ⟨s1, .with_, e1⟩ :: (⟨s2, .library, e2⟩ :: (⟨s3, .end_, e3⟩ :: (rest)))) rfl p 0 k
  have t1_1 : ∀ p k, (PS.mk p (w1 ++ (⟨s1, .with_, e1⟩ :: (⟨s2, .library, e2⟩ :: (⟨s3, .end_, e3⟩ :: (rest)))))).among 1 k = (PS.mk p (⟨s1, .with_, e1⟩ :: (⟨s2, .library, e2⟩ :: (⟨s3, .end_, e3⟩ :: (rest))))).among 0 k := fun p k => d1.single_among (K := ⟨s1, .with_, e1⟩ :: (⟨s2, .library, e2⟩ :: (⟨s3, .end_, e3⟩ :: (rest)))) rfl p 0 k
  have s1_2 : ∀ p k, (PS.mk p (w1 ++ (⟨s1, .with_, e1⟩ :: (⟨s2, .library, e2⟩ :: (⟨s3, .end_, e3⟩ :: (rest)))))).at? 2 k = (PS.mk p (⟨s1, .with_, e1⟩ :: (⟨s2, .library, e2⟩ :: (⟨s3, .end_, e3⟩ :: (rest))))).at? 1 k := fun p k => d1.single_at (K := ⟨s1, .with_, e1⟩ :: (⟨s2, .library, e2⟩ :: (⟨s3, .end_, e3⟩ :: (rest)))) rfl p 1 k
  have t1_2 : ∀ p k, (PS.mk p (w1 ++ (⟨s1, .with_, e1⟩ :: (⟨s2, .library, e2⟩ :: (⟨s3, .end_, e3⟩ :: (rest)))))).among 2 k = (PS.mk p (⟨s1, .with_, e1⟩ :: (⟨s2, .library, e2⟩ :: (⟨s3, .end_, e3⟩ :: (rest))))).among 1 k := fun p k => d1.single_among (K := ⟨s1, .with_, e1⟩ :: (⟨s2, .library, e2⟩ :: (⟨s3, .end_, e3⟩ :: (rest)))) rfl p 1 k
  have s1_3 : ∀ p k, (PS.mk p (w1 ++ (⟨s1, .with_, e1⟩ :: (⟨s2, .library, e2⟩ :: (⟨s3, .end_, e3⟩ :: (rest)))))).at? 3 k = (PS.mk p (⟨s1, .with_, e1⟩ :: (⟨s2, .library, e2⟩ :: (⟨s3, .end_, e3⟩ :: (rest))))).at? 2 k := fun p k => d1.single_at (K := ⟨s1, .with_, e1⟩ :: (⟨s2, .library, e2⟩ :: (⟨s3, .end_, e3⟩ :: (rest)))) rfl p 2 k
  have t1_3 : ∀ p k, (PS.mk p (w1 ++ (⟨s1, .with_, e1⟩ :: (⟨s2, .library, e2⟩ :: (⟨s3, .end_, e3⟩ :: (rest)))))).among 3 k = (PS.mk p (⟨s1, .with_, e1⟩ :: (⟨s2, .library, e2⟩ :: (⟨s3, .end_, e3⟩ :: (rest))))).among 2 k := fun p k => d1.single_among (K := ⟨s1, .with_, e1⟩ :: (⟨s2, .library, e2⟩ :: (⟨s3, .end_, e3⟩ :: (rest)))) rfl p 2 k
  have s1_4 : ∀ p k, (PS.mk p (w1 ++ (⟨s1, .with_, e1⟩ :: (⟨s2, .library, e2⟩ :: (⟨s3, .end_, e3⟩ :: (rest)))))).at? 4 k = (PS.mk p (⟨s1, .with_, e1⟩ :: (⟨s2, .library, e2⟩ :: (⟨s3, .end_, e3⟩ :: (rest))))).at? 3 k := fun p k => d1.single_at (K := ⟨s1, .with_, e1⟩ :: (⟨s2, .library, e2⟩ :: (⟨s3, .end_, e3⟩ :: (rest)))) rfl p 3 k
  have t1_4 : ∀ p k, (PS.mk p (w1 ++ (⟨s1, .with_, e1⟩ :: (⟨s2, .library, e2⟩ :: (⟨s3, .end_, e3⟩ :: (rest)))))).among 4 k = (PS.mk p (⟨s1, .with_, e1⟩ :: (⟨s2, .library, e2⟩ :: (⟨s3, .end_, e3⟩ :: (rest))))).among 3 k := fun p k => d1.single_among (K := ⟨s1, .with_, e1⟩ :: (⟨s2, .library, e2⟩ :: (⟨s3, .end_, e3⟩ :: (rest)))) rfl p 3 k
  simp (decide := true) [pAddressType, expect_cons, PS.wrap, mkW, startOf_cons, stopOf, stopFrom, stopFrom_append, hA, hB, r1, a1, b1, c1, g1, e1e, s1_1, t1_1, s1_2, t1_2, s1_3, t1_3, s1_4, t1_4]

set_option autoImplicit true in
theorem c_addrSpecial (ih : Comp fu)
    (d1 : Derives .typeName w1 n)
    (d2 : Derives .specialId w2 sp)
    (heq : w = w1 ++ ⟨s1, .with_, e1⟩ :: (w2 ++ [⟨s2, .end_, e2⟩]))
    (hl : 32 * w.length + rank .addressType ≤ fu + 1) (hF : Follow (bad .addressType) rest) :
    pAddressType (parse fu) ⟨po, w ++ rest⟩ = some (((mkW w (.mk n sp [])) : Val .addressType), ⟨stopFrom po w, rest⟩) := by
  have l1 := d1.length_pos rfl
  have l2 := d2.length_pos rfl
  subst heq
  simp only [List.length_append, List.length_cons, List.length_nil, rank] at hl
  have hA := fun p k hk => hF.at p k hk
  have hB := fun p M hM => hF.among (M := M) p hM
  have r1 : ∀ pp, parse fu .typeName ⟨pp, w1 ++ (⟨s1, .with_, e1⟩ :: (w2 ++ (⟨s2, .end_, e2⟩ :: (rest))))⟩ = some (n, ⟨stopFrom pp w1, ⟨s1, .with_, e1⟩ :: (w2 ++ (⟨s2, .end_, e2⟩ :: (rest)))⟩) :=
    fun p => ih _ _ _ d1 rfl (by simp only [rank]; omega) p _ (.tok (by decide))
  have a1 := fun p k hk => d1.at0 (K := ⟨s1, .with_, e1⟩ :: (w2 ++ (⟨s2, .end_, e2⟩ :: (rest)))) rfl p k hk
  have b1 := fun p L hk => d1.among0 (K := ⟨s1, .with_, e1⟩ :: (w2 ++ (⟨s2, .end_, e2⟩ :: (rest)))) rfl p L hk
  have c1 := fun p L hk => d1.among0_false (K := ⟨s1, .with_, e1⟩ :: (w2 ++ (⟨s2, .end_, e2⟩ :: (rest)))) rfl p L hk
  have g1 := fun K => d1.startOf_app (K := K) rfl
  have e1e := fun p => d1.stop_eq rfl p
  have s1_1 : ∀ p k, (PS.mk p (w1 ++ (⟨s1, .with_, e1⟩ :: (w2 ++ (⟨s2, .end_, e2⟩ :: (rest)))))).at? 1 k = (PS.mk p (⟨s1, .with_, e1⟩ :: (w2 ++ (⟨s2, .end_, e2⟩ :: (rest))))).at? 0 k := fun p k => d1.single_at (K := ⟨s1, .with_, e1⟩ :: (w2 ++ (⟨s2, .end_, e2⟩ :: (rest)))) rfl p 0 k
  have t1_1 : ∀ p k, (PS.mk p (w1 ++ (⟨s1, .with_, e1⟩ :: (w2 ++ (⟨s2, .end_, e2⟩ :: (rest)))))).among 1 k = (PS.mk p (⟨s1, .with_, e1⟩ :: (w2 ++ (⟨s2, .end_, e2⟩ :: (rest))))).among 0 k := fun p k => d1.single_among (K := ⟨s1, .with_, e1⟩ :: (w2 ++ (⟨s2, .end_, e2⟩ :: (rest)))) rfl p 0 k
  have s1_2 : ∀ p k, (PS.mk p (w1 ++ (⟨s1, .with_, e1⟩ :: (w2 ++ (⟨s2, .end_, e2⟩ :: (rest)))))).at? 2 k = (PS.mk p (⟨s1, .with_, e1⟩ :: (w2 ++ (⟨s2, .end_, e2⟩ :: (rest))))).at? 1 k := fun p k => d1.single_at (K := ⟨s1, .with_, e1⟩ :: (w2 ++ (⟨s2, .end_, e2⟩ :: (rest)))) rfl p 1 k
  have t1_2 : ∀ p k, (PS.mk p (w1 ++ (⟨s1, .with_, e1⟩ :: (w2 ++ (⟨s2, .end_, e2⟩ :: (rest)))))).among 2 k = (PS.mk p (⟨s1, .with_, e1⟩ :: (w2 ++ (⟨s2, .end_, e2⟩ :: (rest))))).among 1 k := fun p k => d1.single_among (K := ⟨s1, .with_, e1⟩ :: (w2 ++ (⟨s2, .end_, e2⟩ :: (rest)))) rfl p 1 k
  have s1_3 : ∀ p k, (PS.mk p (w1 ++ (⟨s1, .with_, e1⟩ :: (w2 ++ (⟨s2, .end_, e2⟩ :: (rest)))))).at? 3 k = (PS.mk p (⟨s1, .with_, e1⟩ :: (w2 ++ (⟨s2, .end_, e2⟩ :: (rest))))).at? 2 k := fun p k => d1.single_at (K := ⟨s1, .with_, e1⟩ :: (w2 ++ (⟨s2, .end_, e2⟩ :: (rest)))) rfl p 2 k
  have t1_3 : ∀ p k, (PS.mk p (w1 ++ (⟨s1, .with_, e1⟩ :: (w2 ++ (⟨s2, .end_, e2⟩ :: (rest)))))).among 3 k = (PS.mk p (⟨s1, .with_, e1⟩ :: (w2 ++ (⟨s2, .end_, e2⟩ :: (rest))))).among 2 k := fun p k => d1.single_among (K := ⟨s1, .with_, e1⟩ :: (w2 ++ (⟨s2, .end_, e2⟩ :: (rest)))) rfl p 2 k
  have s1_4 : ∀ p k, (PS.mk p (w1 ++ (⟨s1, .with_, e1⟩ :: (w2 ++ (⟨s2, .end_, e2⟩ :: (rest)))))).at? 4 k = (PS.mk p (⟨s1, .with_, e1⟩ :: (w2 ++ (⟨s2, .end_, e2⟩ :: (rest))))).at? 3 k := fun p k => d1.single_at (K := ⟨s1, .with_, e1⟩ :: (w2 ++ (⟨s2, .end_, e2⟩ :: (rest)))) rfl p 3 k
  have t1_4 : ∀ p k, (PS.mk p (w1 ++ (⟨s1, .with_, e1⟩ :: (w2 ++ (⟨s2, .end_, e2⟩ :: (rest)))))).among 4 k = (PS.mk p (⟨s1, .with_, e1⟩ :: (w2 ++ (⟨s2, .end_, e2⟩ :: (rest))))).among 3 k := fun p k => d1.single_among (K := ⟨s1, .with_, e1⟩ :: (w2 ++ (⟨s2, .end_, e2⟩ :: (rest)))) rfl p 3 k
  have r2 : ∀ pp, parse fu .specialId ⟨pp, w2 ++ (⟨s2, .end_, e2⟩ :: (rest))⟩ = some (sp, ⟨stopFrom pp w2, ⟨s2, .end_, e2⟩ :: (rest)⟩) :=
    fun p => ih _ _ _ d2 rfl (by simp only [rank]; omega) p _ (.tok (by decide))
  have a2 := fun p k hk => d2.at0 (K := ⟨s2, .end_, e2⟩ :: (rest)) rfl p k hk
  have b2 := fun p L hk => d2.among0 (K := ⟨s2, .end_, e2⟩ :: (rest)) rfl p L hk
  have c2 := fun p L hk => d2.among0_false (K := ⟨s2, .end_, e2⟩ :: (rest)) rfl p L hk
  have g2 := fun K => d2.startOf_app (K := K) rfl
  have e2e := fun p => d2.stop_eq rfl p
  have s2_1 : ∀ p k, (PS.mk p (w2 ++ (⟨s2, .end_, e2⟩ :: (rest)))).at? 1 k = (PS.mk p (⟨s2, .end_, e2⟩ :: (rest))).at? 0 k := fun p k => d2.single_at (K := ⟨s2, .end_, e2⟩ :: (rest)) rfl p 0 k
  have t2_1 : ∀ p k, (PS.mk p (w2 ++ (⟨s2, .end_, e2⟩ :: (rest)))).among 1 k = (PS.mk p (⟨s2, .end_, e2⟩ :: (rest))).among 0 k := fun p k => d2.single_among (K := ⟨s2, .end_, e2⟩ :: (rest)) rfl p 0 k
  have s2_2 : ∀ p k, (PS.mk p (w2 ++ (⟨s2, .end_, e2⟩ :: (rest)))).at? 2 k = (PS.mk p (⟨s2, .end_, e2⟩ :: (rest))).at? 1 k := fun p k => d2.single_at (K := ⟨s2, .end_, e2⟩ :: (rest)) rfl p 1 k
  have t2_2 : ∀ p k, (PS.mk p (w2 ++ (⟨s2, .end_, e2⟩ :: (rest)))).among 2 k = (PS.mk p (⟨s2, .end_, e2⟩ :: (rest))).among 1 k := fun p k => d2.single_among (K := ⟨s2, .end_, e2⟩ :: (rest)) rfl p 1 k
  have s2_3 : ∀ p k, (PS.mk p (w2 ++ (⟨s2, .end_, e2⟩ :: (rest)))).at? 3 k = (PS.mk p (⟨s2, .end_, e2⟩ :: (rest))).at? 2 k := fun p k => d2.single_at (K := ⟨s2, .end_, e2⟩ :: (rest)) rfl p 2 k
  have t2_3 : ∀ p k, (PS.mk p (w2 ++ (⟨s2, .end_, e2⟩ :: (rest)))).among 3 k = (PS.mk p (⟨s2, .end_, e2⟩ :: (rest))).among 2 k := fun p k => d2.single_among (K := ⟨s2, .end_, e2⟩ :: (rest)) rfl p 2 k
  have s2_4 : ∀ p k, (PS.mk p (w2 ++ (⟨s2, .end_, e2⟩ :: (rest)))).at? 4 k = (PS.mk p (⟨s2, .end_, e2⟩ :: (rest))).at? 3 k := fun p k => d2.single_at (K := ⟨s2, .end_, e2⟩ :: (rest)) rfl p 3 k
  have t2_4 : ∀ p k, (PS.mk p (w2 ++ (⟨s2, .end_, e2⟩ :: (rest)))).among 4 k = (PS.mk p (⟨s2, .end_, e2⟩ :: (rest))).among 3 k := fun p k => d2.single_among (K := ⟨s2, .end_, e2⟩ :: (rest)) rfl p 3 k
  have u2 := fun p => d2.at0_true (K := ⟨s2, .end_, e2⟩ :: (rest)) (k := .specialIdentifier []) rfl rfl p
  simp (decide := true) [pAddressType, expect_cons, PS.wrap, mkW, startOf_cons, stopOf, stopFrom, stopFrom_append, hA, hB, r1, a1, b1, c1, g1, e1e, s1_1, t1_1, s1_2, t1_2, s1_3, t1_3, s1_4, t1_4, r2, a2, b2, c2, g2, e2e, s2_1, t2_1, s2_2, t2_2, s2_3, t2_3, s2_4, t2_4, u2]

set_option autoImplicit true in
theorem c_addrFieldList (ih : Comp fu)
    (d1 : Derives .addressField w1 f)
    (d2 : Derives (.star .nextAddressField) w2 fs)
    (heq : w = w1 ++ w2)
    (hl : 32 * w.length + rank .addressFieldList ≤ fu + 1) (hF : Follow (bad .addressFieldList) rest) :
    pAddressFieldList (parse fu) ⟨po, w ++ rest⟩ = some (((f :: fs) : Val .addressFieldList), ⟨stopFrom po w, rest⟩) := by
  have l1 := d1.length_pos rfl
  subst heq
  simp only [List.length_append, List.length_cons, List.length_nil, rank] at hl
  have hA := fun p k hk => hF.at p k hk
  have hB := fun p M hM => hF.among (M := M) p hM
  have r1 : ∀ pp, parse fu .addressField ⟨pp, w1 ++ (w2 ++ (rest))⟩ = some (f, ⟨stopFrom pp w1, w2 ++ (rest)⟩) :=
    fun p => ih _ _ _ d1 rfl (by simp only [rank]; omega) p _ (.app' d2 (by decide) (hF.mono (by decide)))
  have a1 := fun p k hk => d1.at0 (K := w2 ++ (rest)) rfl p k hk
  have b1 := fun p L hk => d1.among0 (K := w2 ++ (rest)) rfl p L hk
  have c1 := fun p L hk => d1.among0_false (K := w2 ++ (rest)) rfl p L hk
  have g1 := fun K => d1.startOf_app (K := K) rfl
  have e1e := fun p => d1.stop_eq rfl p
  have r2 : ∀ pp, parse fu (.star .nextAddressField) ⟨pp, w2 ++ (rest)⟩ = some (fs, ⟨stopFrom pp w2, rest⟩) :=
    fun p => ih _ _ _ d2 rfl (by simp only [rank]; omega) p _ (hF.mono (by decide))
  simp (decide := true) [pAddressFieldList, expect_cons, PS.wrap, mkW, startOf_cons, stopOf, stopFrom, stopFrom_append, hA, hB, r1, a1, b1, c1, g1, e1e, r2]

set_option autoImplicit true in
theorem c_nextAddrField (ih : Comp fu)
    (d1 : Derives .addressField w1 f)
    (heq : w = ⟨s1, .comma, e1⟩ :: w1)
    (hl : 32 * w.length + rank .nextAddressField ≤ fu + 1) (hF : Follow (bad .nextAddressField) rest) :
    pNextAddressField (parse fu) ⟨po, w ++ rest⟩ = some ((f : Val .nextAddressField), ⟨stopFrom po w, rest⟩) := by
  have l1 := d1.length_pos rfl
  subst heq
  simp only [List.length_append, List.length_cons, List.length_nil, rank] at hl
  have hA := fun p k hk => hF.at p k hk
  have hB := fun p M hM => hF.among (M := M) p hM
  have r1 : ∀ pp, parse fu .addressField ⟨pp, w1 ++ (rest)⟩ = some (f, ⟨stopFrom pp w1, rest⟩) :=
    fun p => ih _ _ _ d1 rfl (by simp only [rank]; omega) p _ (hF.mono (by decide))
  have a1 := fun p k hk => d1.at0 (K := rest) rfl p k hk
  have b1 := fun p L hk => d1.among0 (K := rest) rfl p L hk
  have c1 := fun p L hk => d1.among0_false (K := rest) rfl p L hk
  have g1 := fun K => d1.startOf_app (K := K) rfl
  have e1e := fun p => d1.stop_eq rfl p
  simp (decide := true) [pNextAddressField, expect_cons, PS.wrap, mkW, startOf_cons, stopOf, stopFrom, stopFrom_append, hA, hB, r1, a1, b1, c1, g1, e1e]

set_option autoImplicit true in
theorem c_addrField (ih : Comp fu)
    (d1 : Derives .varId w1 i)
    (d2 : Derives .scillaType w2 t)
    (heq : w = ⟨s1, .field, e1⟩ :: (w1 ++ ⟨s2, .colon, e2⟩ :: w2))
    (hl : 32 * w.length + rank .addressField ≤ fu + 1) (hF : Follow (bad .addressField) rest) :
    pAddressField (parse fu) ⟨po, w ++ rest⟩ = some (((mkW w (.mk i t)) : Val .addressField), ⟨stopFrom po w, rest⟩) := by
  have l1 := d1.length_pos rfl
  have l2 := d2.length_pos rfl
  subst heq
  simp only [List.length_append, List.length_cons, List.length_nil, rank] at hl
  have hA := fun p k hk => hF.at p k hk
  have hB := fun p M hM => hF.among (M := M) p hM
  have r1 : ∀ pp, parse fu .varId ⟨pp, w1 ++ (⟨s2, .colon, e2⟩ :: (w2 ++ (rest)))⟩ = some (i, ⟨stopFrom pp w1, ⟨s2, .colon, e2⟩ :: (w2 ++ (rest))⟩) :=
    fun p => ih _ _ _ d1 rfl (by simp only [rank]; omega) p _ (.tok (by decide))
  have a1 := fun p k hk => d1.at0 (K := ⟨s2, .colon, e2⟩ :: (w2 ++ (rest))) rfl p k hk
  have b1 := fun p L hk => d1.among0 (K := ⟨s2, .colon, e2⟩ :: (w2 ++ (rest))) rfl p L hk
  have c1 := fun p L hk => d1.among0_false (K := ⟨s2, .colon, e2⟩ :: (w2 ++ (rest))) rfl p L hk
  have g1 := fun K => d1.startOf_app (K := K) rfl
  have e1e := fun p => d1.stop_eq rfl p
  have v1 := fun p => isVar_varId (K := ⟨s2, .colon, e2⟩ :: (w2 ++ (rest))) d1 p
  have r2 : ∀ pp, parse fu .scillaType ⟨pp, w2 ++ (rest)⟩ = some (t, ⟨stopFrom pp w2, rest⟩) :=
    fun p => ih _ _ _ d2 rfl (by simp only [rank]; omega) p _ (hF.mono (by decide))
  have a2 := fun p k hk => d2.at0 (K := rest) rfl p k hk
  have b2 := fun p L hk => d2.among0 (K := rest) rfl p L hk
  have c2 := fun p L hk => d2.among0_false (K := rest) rfl p L hk
  have g2 := fun K => d2.startOf_app (K := K) rfl
  have e2e := fun p => d2.stop_eq rfl p
  simp (decide := true) [pAddressField, expect_cons, PS.wrap, mkW, startOf_cons, stopOf, stopFrom, stopFrom_append, hA, hB, r1, a1, b1, c1, g1, e1e, v1, r2, a2, b2, c2, g2, e2e]

set_option autoImplicit true in
theorem c_keyMeta (ih : Comp fu)
    (d1 : Derives .metaId w m)
    (hl : 32 * w.length + rank .mapKey ≤ fu + 1) (hF : Follow (bad .mapKey) rest) :
    pMapKey (parse fu) ⟨po, w ++ rest⟩ = some (((mkW w (.genericMapKey m)) : Val .mapKey), ⟨stopFrom po w, rest⟩) := by
  have l1 := d1.length_pos rfl
  simp only [List.length_append, List.length_cons, List.length_nil, rank] at hl
  have hA := fun p k hk => hF.at p k hk
  have hB := fun p M hM => hF.among (M := M) p hM
  have r1 : ∀ pp, parse fu .metaId ⟨pp, w ++ (rest)⟩ = some (m, ⟨stopFrom pp w, rest⟩) :=
    fun p => ih _ _ _ d1 rfl (by simp only [rank]; omega) p _ (hF.mono (by decide))
  have a1 := fun p k hk => d1.at0 (K := rest) rfl p k hk
  have b1 := fun p L hk => d1.among0 (K := rest) rfl p L hk
  have c1 := fun p L hk => d1.among0_false (K := rest) rfl p L hk
  have g1 := fun K => d1.startOf_app (K := K) rfl
  have e1e := fun p => d1.stop_eq rfl p
  have v1 := fun p => isAddr_metaId (K := rest) d1 p (hF.mono (by decide))
  simp (decide := true) [pMapKey, expect_cons, PS.wrap, mkW, startOf_cons, stopOf, stopFrom, stopFrom_append, hA, hB, r1, a1, b1, c1, g1, e1e, v1]

set_option autoImplicit true in
theorem c_keyParenMeta (ih : Comp fu)
    (d1 : Derives .metaId w1 m)
    (heq : w = ⟨s1, .openParen, e1⟩ :: (w1 ++ [⟨s2, .closeParen, e2⟩]))
    (hl : 32 * w.length + rank .mapKey ≤ fu + 1) (hF : Follow (bad .mapKey) rest) :
    pMapKey (parse fu) ⟨po, w ++ rest⟩ = some (((mkW w (.enclosedGenericId m)) : Val .mapKey), ⟨stopFrom po w, rest⟩) := by
  have l1 := d1.length_pos rfl
  subst heq
  simp only [List.length_append, List.length_cons, List.length_nil, rank] at hl
  have hA := fun p k hk => hF.at p k hk
  have hB := fun p M hM => hF.among (M := M) p hM
  have r1 : ∀ pp, parse fu .metaId ⟨pp, w1 ++ (⟨s2, .closeParen, e2⟩ :: (rest))⟩ = some (m, ⟨stopFrom pp w1, ⟨s2, .closeParen, e2⟩ :: (rest)⟩) :=
    fun p => ih _ _ _ d1 rfl (by simp only [rank]; omega) p _ (.tok (by decide))
  have a1 := fun p k hk => d1.at0 (K := ⟨s2, .closeParen, e2⟩ :: (rest)) rfl p k hk
  have b1 := fun p L hk => d1.among0 (K := ⟨s2, .closeParen, e2⟩ :: (rest)) rfl p L hk
  have c1 := fun p L hk => d1.among0_false (K := ⟨s2, .closeParen, e2⟩ :: (rest)) rfl p L hk
  have g1 := fun K => d1.startOf_app (K := K) rfl
  have e1e := fun p => d1.stop_eq rfl p
  have v1 := fun p => isAddr_metaId (K := ⟨s2, .closeParen, e2⟩ :: (rest)) d1 p (.tok (by decide))
  simp (decide := true) [pMapKey, expect_cons, PS.wrap, mkW, startOf_cons, stopOf, stopFrom, stopFrom_append, hA, hB, r1, a1, b1, c1, g1, e1e, v1]

set_option autoImplicit true in
theorem c_keyParenAddress (ih : Comp fu)
    (d1 : Derives .addressType w1 a)
    (heq : w = ⟨s1, .openParen, e1⟩ :: (w1 ++ [⟨s2, .closeParen, e2⟩]))
    (hl : 32 * w.length + rank .mapKey ≤ fu + 1) (hF : Follow (bad .mapKey) rest) :
    pMapKey (parse fu) ⟨po, w ++ rest⟩ = some (((mkW w (.enclosedAddressMapKeyType a)) : Val .mapKey), ⟨stopFrom po w, rest⟩) := by
  have l1 := d1.length_pos rfl
  subst heq
  simp only [List.length_append, List.length_cons, List.length_nil, rank] at hl
  have hA := fun p k hk => hF.at p k hk
  have hB := fun p M hM => hF.among (M := M) p hM
  have r1 : ∀ pp, parse fu .addressType ⟨pp, w1 ++ (⟨s2, .closeParen, e2⟩ :: (rest))⟩ = some (a, ⟨stopFrom pp w1, ⟨s2, .closeParen, e2⟩ :: (rest)⟩) :=
    fun p => ih _ _ _ d1 rfl (by simp only [rank]; omega) p _ (.tok (by decide))
  have a1 := fun p k hk => d1.at0 (K := ⟨s2, .closeParen, e2⟩ :: (rest)) rfl p k hk
  have b1 := fun p L hk => d1.among0 (K := ⟨s2, .closeParen, e2⟩ :: (rest)) rfl p L hk
  have c1 := fun p L hk => d1.among0_false (K := ⟨s2, .closeParen, e2⟩ :: (rest)) rfl p L hk
  have g1 := fun K => d1.startOf_app (K := K) rfl
  have e1e := fun p => d1.stop_eq rfl p
  have v1 := fun p => isAddr_addressType (K := ⟨s2, .closeParen, e2⟩ :: (rest)) d1 p
  simp (decide := true) [pMapKey, expect_cons, PS.wrap, mkW, startOf_cons, stopOf, stopFrom, stopFrom_append, hA, hB, r1, a1, b1, c1, g1, e1e, v1]

set_option autoImplicit true in
theorem c_keyAddress (ih : Comp fu)
    (d1 : Derives .addressType w a)
    (hl : 32 * w.length + rank .mapKey ≤ fu + 1) (hF : Follow (bad .mapKey) rest) :
    pMapKey (parse fu) ⟨po, w ++ rest⟩ = some (((mkW w (.addressMapKeyType a)) : Val .mapKey), ⟨stopFrom po w, rest⟩) := by
  have l1 := d1.length_pos rfl
  simp only [List.length_append, List.length_cons, List.length_nil, rank] at hl
  have hA := fun p k hk => hF.at p k hk
  have hB := fun p M hM => hF.among (M := M) p hM
  have r1 : ∀ pp, parse fu .addressType ⟨pp, w ++ (rest)⟩ = some (a, ⟨stopFrom pp w, rest⟩) :=
    fun p => ih _ _ _ d1 rfl (by simp only [rank]; omega) p _ (hF.mono (by decide))
  have a1 := fun p k hk => d1.at0 (K := rest) rfl p k hk
  have b1 := fun p L hk => d1.among0 (K := rest) rfl p L hk
  have c1 := fun p L hk => d1.among0_false (K := rest) rfl p L hk
  have g1 := fun K => d1.startOf_app (K := K) rfl
  have e1e := fun p => d1.stop_eq rfl p
  have v1 := fun p => isAddr_addressType (K := rest) d1 p
  simp (decide := true) [pMapKey, expect_cons, PS.wrap, mkW, startOf_cons, stopOf, stopFrom, stopFrom_append, hA, hB, r1, a1, b1, c1, g1, e1e, v1]

set_option autoImplicit true in
theorem c_valMeta (ih : Comp fu)
    (d1 : Derives .metaId w m)
    (hl : 32 * w.length + rank .mapValue ≤ fu + 1) (hF : Follow (bad .mapValue) rest) :
    pMapValue (parse fu) ⟨po, w ++ rest⟩ = some (((mkW w (.mapValueTypeOrEnumLikeIdentifier m)) : Val .mapValue), ⟨stopFrom po w, rest⟩) := by
  have l1 := d1.length_pos rfl
  simp only [List.length_append, List.length_cons, List.length_nil, rank] at hl
  have hA := fun p k hk => hF.at p k hk
  have hB := fun p M hM => hF.among (M := M) p hM
  have r1 : ∀ pp, parse fu .metaId ⟨pp, w ++ (rest)⟩ = some (m, ⟨stopFrom pp w, rest⟩) :=
    fun p => ih _ _ _ d1 rfl (by simp only [rank]; omega) p _ (hF.mono (by decide))
  have a1 := fun p k hk => d1.at0 (K := rest) rfl p k hk
  have b1 := fun p L hk => d1.among0 (K := rest) rfl p L hk
  have c1 := fun p L hk => d1.among0_false (K := rest) rfl p L hk
  have g1 := fun K => d1.startOf_app (K := K) rfl
  have e1e := fun p => d1.stop_eq rfl p
  have v1 := fun p => isAddr_metaId (K := rest) d1 p (hF.mono (by decide))
  simp (decide := true) [pMapValue, expect_cons, PS.wrap, mkW, startOf_cons, stopOf, stopFrom, stopFrom_append, hA, hB, r1, a1, b1, c1, g1, e1e, v1]

set_option autoImplicit true in
theorem c_valMap (ih : Comp fu)
    (d1 : Derives .mapKey w1 k)
    (d2 : Derives .mapValue w2 v)
    (heq : w = ⟨s1, .map, e1⟩ :: (w1 ++ w2))
    (hl : 32 * w.length + rank .mapValue ≤ fu + 1) (hF : Follow (bad .mapValue) rest) :
    pMapValue (parse fu) ⟨po, w ++ rest⟩ = some (((mkW w (.mapKeyValue (mkW w (.mk k v)))) : Val .mapValue), ⟨stopFrom po w, rest⟩) := by
  have l1 := d1.length_pos rfl
  have l2 := d2.length_pos rfl
  subst heq
  simp only [List.length_append, List.length_cons, List.length_nil, rank] at hl
  have hA := fun p k hk => hF.at p k hk
  have hB := fun p M hM => hF.among (M := M) p hM
  have r1 : ∀ pp, parse fu .mapKey ⟨pp, w1 ++ (w2 ++ (rest))⟩ = some (k, ⟨stopFrom pp w1, w2 ++ (rest)⟩) :=
    fun p => ih _ _ _ d1 rfl (by simp only [rank]; omega) p _ (.app d2 (by decide) rfl)
  have a1 := fun p k hk => d1.at0 (K := w2 ++ (rest)) rfl p k hk
  have b1 := fun p L hk => d1.among0 (K := w2 ++ (rest)) rfl p L hk
  have c1 := fun p L hk => d1.among0_false (K := w2 ++ (rest)) rfl p L hk
  have g1 := fun K => d1.startOf_app (K := K) rfl
  have e1e := fun p => d1.stop_eq rfl p
  have r2 : ∀ pp, parse fu .mapValue ⟨pp, w2 ++ (rest)⟩ = some (v, ⟨stopFrom pp w2, rest⟩) :=
    fun p => ih _ _ _ d2 rfl (by simp only [rank]; omega) p _ (hF.mono (by decide))
  have a2 := fun p k hk => d2.at0 (K := rest) rfl p k hk
  have b2 := fun p L hk => d2.among0 (K := rest) rfl p L hk
  have c2 := fun p L hk => d2.among0_false (K := rest) rfl p L hk
  have g2 := fun K => d2.startOf_app (K := K) rfl
  have e2e := fun p => d2.stop_eq rfl p
  simp (decide := true) [pMapValue, expect_cons, PS.wrap, mkW, startOf_cons, stopOf, stopFrom, stopFrom_append, hA, hB, r1, a1, b1, c1, g1, e1e, r2, a2, b2, c2, g2, e2e]

set_option autoImplicit true in
theorem c_valParen (ih : Comp fu)
    (d1 : Derives .mapValueAllowing w1 t)
    (heq : w = ⟨s1, .openParen, e1⟩ :: (w1 ++ [⟨s2, .closeParen, e2⟩]))
    (hl : 32 * w.length + rank .mapValue ≤ fu + 1) (hF : Follow (bad .mapValue) rest) :
    pMapValue (parse fu) ⟨po, w ++ rest⟩ = some (((mkW w (.mapValueParenthesizedType t)) : Val .mapValue), ⟨stopFrom po w, rest⟩) := by
  have l1 := d1.length_pos rfl
  subst heq
  simp only [List.length_append, List.length_cons, List.length_nil, rank] at hl
  have hA := fun p k hk => hF.at p k hk
  have hB := fun p M hM => hF.among (M := M) p hM
  have r1 : ∀ pp, parse fu .mapValueAllowing ⟨pp, w1 ++ (⟨s2, .closeParen, e2⟩ :: (rest))⟩ = some (t, ⟨stopFrom pp w1, ⟨s2, .closeParen, e2⟩ :: (rest)⟩) :=
    fun p => ih _ _ _ d1 rfl (by simp only [rank]; omega) p _ (.tok (by decide))
  have a1 := fun p k hk => d1.at0 (K := ⟨s2, .closeParen, e2⟩ :: (rest)) rfl p k hk
  have b1 := fun p L hk => d1.among0 (K := ⟨s2, .closeParen, e2⟩ :: (rest)) rfl p L hk
  have c1 := fun p L hk => d1.among0_false (K := ⟨s2, .closeParen, e2⟩ :: (rest)) rfl p L hk
  have g1 := fun K => d1.startOf_app (K := K) rfl
  have e1e := fun p => d1.stop_eq rfl p
  simp (decide := true) [pMapValue, expect_cons, PS.wrap, mkW, startOf_cons, stopOf, stopFrom, stopFrom_append, hA, hB, r1, a1, b1, c1, g1, e1e]

set_option autoImplicit true in
theorem c_valAddress (ih : Comp fu)
    (d1 : Derives .addressType w a)
    (hl : 32 * w.length + rank .mapValue ≤ fu + 1) (hF : Follow (bad .mapValue) rest) :
    pMapValue (parse fu) ⟨po, w ++ rest⟩ = some (((mkW w (.mapValueAddressType a)) : Val .mapValue), ⟨stopFrom po w, rest⟩) := by
  have l1 := d1.length_pos rfl
  simp only [List.length_append, List.length_cons, List.length_nil, rank] at hl
  have hA := fun p k hk => hF.at p k hk
  have hB := fun p M hM => hF.among (M := M) p hM
  have r1 : ∀ pp, parse fu .addressType ⟨pp, w ++ (rest)⟩ = some (a, ⟨stopFrom pp w, rest⟩) :=
    fun p => ih _ _ _ d1 rfl (by simp only [rank]; omega) p _ (hF.mono (by decide))
  have a1 := fun p k hk => d1.at0 (K := rest) rfl p k hk
  have b1 := fun p L hk => d1.among0 (K := rest) rfl p L hk
  have c1 := fun p L hk => d1.among0_false (K := rest) rfl p L hk
  have g1 := fun K => d1.startOf_app (K := K) rfl
  have e1e := fun p => d1.stop_eq rfl p
  have v1 := fun p => isAddr_addressType (K := rest) d1 p
  simp (decide := true) [pMapValue, expect_cons, PS.wrap, mkW, startOf_cons, stopOf, stopFrom, stopFrom_append, hA, hB, r1, a1, b1, c1, g1, e1e, v1]

set_option autoImplicit true in
theorem c_mvaParen (ih : Comp fu)
    (d1 : Derives .mapValueAllowing w1 t)
    (heq : w = ⟨s1, .openParen, e1⟩ :: (w1 ++ [⟨s2, .closeParen, e2⟩]))
    (hl : 32 * w.length + rank .mapValueArgs ≤ fu + 1) (hF : Follow (bad .mapValueArgs) rest) :
    pMapValueArgs (parse fu) ⟨po, w ++ rest⟩ = some (((mkW w (.enclosedTypeMapValue t)) : Val .mapValueArgs), ⟨stopFrom po w, rest⟩) := by
  have l1 := d1.length_pos rfl
  subst heq
  simp only [List.length_append, List.length_cons, List.length_nil, rank] at hl
  have hA := fun p k hk => hF.at p k hk
  have hB := fun p M hM => hF.among (M := M) p hM
  have r1 : ∀ pp, parse fu .mapValueAllowing ⟨pp, w1 ++ (⟨s2, .closeParen, e2⟩ :: (rest))⟩ = some (t, ⟨stopFrom pp w1, ⟨s2, .closeParen, e2⟩ :: (rest)⟩) :=
    fun p => ih _ _ _ d1 rfl (by simp only [rank]; omega) p _ (.tok (by decide))
  have a1 := fun p k hk => d1.at0 (K := ⟨s2, .closeParen, e2⟩ :: (rest)) rfl p k hk
  have b1 := fun p L hk => d1.among0 (K := ⟨s2, .closeParen, e2⟩ :: (rest)) rfl p L hk
  have c1 := fun p L hk => d1.among0_false (K := ⟨s2, .closeParen, e2⟩ :: (rest)) rfl p L hk
  have g1 := fun K => d1.startOf_app (K := K) rfl
  have e1e := fun p => d1.stop_eq rfl p
  simp (decide := true) [pMapValueArgs, expect_cons, PS.wrap, mkW, startOf_cons, stopOf, stopFrom, stopFrom_append, hA, hB, r1, a1, b1, c1, g1, e1e]

set_option autoImplicit true in
theorem c_mvaMeta (ih : Comp fu)
    (d1 : Derives .metaId w m)
    (hl : 32 * w.length + rank .mapValueArgs ≤ fu + 1) (hF : Follow (bad .mapValueArgs) rest) :
    pMapValueArgs (parse fu) ⟨po, w ++ rest⟩ = some (((mkW w (.genericMapValueArgument m)) : Val .mapValueArgs), ⟨stopFrom po w, rest⟩) := by
  have l1 := d1.length_pos rfl
  simp only [List.length_append, List.length_cons, List.length_nil, rank] at hl
  have hA := fun p k hk => hF.at p k hk
  have hB := fun p M hM => hF.among (M := M) p hM
  have r1 : ∀ pp, parse fu .metaId ⟨pp, w ++ (rest)⟩ = some (m, ⟨stopFrom pp w, rest⟩) :=
    fun p => ih _ _ _ d1 rfl (by simp only [rank]; omega) p _ (hF.mono (by decide))
  have a1 := fun p k hk => d1.at0 (K := rest) rfl p k hk
  have b1 := fun p L hk => d1.among0 (K := rest) rfl p L hk
  have c1 := fun p L hk => d1.among0_false (K := rest) rfl p L hk
  have g1 := fun K => d1.startOf_app (K := K) rfl
  have e1e := fun p => d1.stop_eq rfl p
  simp (decide := true) [pMapValueArgs, expect_cons, PS.wrap, mkW, startOf_cons, stopOf, stopFrom, stopFrom_append, hA, hB, r1, a1, b1, c1, g1, e1e]

set_option autoImplicit true in
theorem c_mvaMap (ih : Comp fu)
    (d1 : Derives .mapKey w1 k)
    (d2 : Derives .mapValue w2 v)
    (heq : w = ⟨s1, .map, e1⟩ :: (w1 ++ w2))
    (hl : 32 * w.length + rank .mapValueArgs ≤ fu + 1) (hF : Follow (bad .mapValueArgs) rest) :
    pMapValueArgs (parse fu) ⟨po, w ++ rest⟩ = some (((mkW w (.mapKeyValueType k v)) : Val .mapValueArgs), ⟨stopFrom po w, rest⟩) := by
  have l1 := d1.length_pos rfl
  have l2 := d2.length_pos rfl
  subst heq
  simp only [List.length_append, List.length_cons, List.length_nil, rank] at hl
  have hA := fun p k hk => hF.at p k hk
  have hB := fun p M hM => hF.among (M := M) p hM
  have r1 : ∀ pp, parse fu .mapKey ⟨pp, w1 ++ (w2 ++ (rest))⟩ = some (k, ⟨stopFrom pp w1, w2 ++ (rest)⟩) :=
    fun p => ih _ _ _ d1 rfl (by simp only [rank]; omega) p _ (.app d2 (by decide) rfl)
  have a1 := fun p k hk => d1.at0 (K := w2 ++ (rest)) rfl p k hk
  have b1 := fun p L hk => d1.among0 (K := w2 ++ (rest)) rfl p L hk
  have c1 := fun p L hk => d1.among0_false (K := w2 ++ (rest)) rfl p L hk
  have g1 := fun K => d1.startOf_app (K := K) rfl
  have e1e := fun p => d1.stop_eq rfl p
  have r2 : ∀ pp, parse fu .mapValue ⟨pp, w2 ++ (rest)⟩ = some (v, ⟨stopFrom pp w2, rest⟩) :=
    fun p => ih _ _ _ d2 rfl (by simp only [rank]; omega) p _ (hF.mono (by decide))
  have a2 := fun p k hk => d2.at0 (K := rest) rfl p k hk
  have b2 := fun p L hk => d2.among0 (K := rest) rfl p L hk
  have c2 := fun p L hk => d2.among0_false (K := rest) rfl p L hk
  have g2 := fun K => d2.startOf_app (K := K) rfl
  have e2e := fun p => d2.stop_eq rfl p
  simp (decide := true) [pMapValueArgs, expect_cons, PS.wrap, mkW, startOf_cons, stopOf, stopFrom, stopFrom_append, hA, hB, r1, a1, b1, c1, g1, e1e, r2, a2, b2, c2, g2, e2e]

set_option autoImplicit true in
theorem c_program (ih : Comp fu)
    (d1 : Derives .signedInt w1 ver)
    (d2 : Derives (.opt .importDecls) w2 imps)
    (d3 : Derives (.opt .libraryDef) w3 lib)
    (d4 : Derives .contractDef w4 c)
    (heq : w = ⟨s1, .scillaVersion, e1⟩ :: (w1 ++ (w2 ++ (w3 ++ w4))))
    (hl : 32 * w.length + rank .program ≤ fu + 1) (hF : Follow (bad .program) rest) :
    pProgram (parse fu) ⟨po, w ++ rest⟩ = some ((⟨ver, imps, lib, c⟩ : Val .program), ⟨stopFrom po w, rest⟩) := by
  have l1 := d1.length_pos rfl
  have l4 := d4.length_pos rfl
  subst heq
  simp only [List.length_append, List.length_cons, List.length_nil, rank] at hl
  have hA := fun p k hk => hF.at p k hk
  have hB := fun p M hM => hF.among (M := M) p hM
  have r1 : ∀ pp, parse fu .signedInt ⟨pp, w1 ++ (w2 ++ (w3 ++ (w4 ++ (rest))))⟩ = some (ver, ⟨stopFrom pp w1, w2 ++ (w3 ++ (w4 ++ (rest)))⟩) :=
    fun p => ih _ _ _ d1 rfl (by simp only [rank]; omega) p _ (.app' d2 (by decide) (.app' d3 (by decide) (.app d4 (by decide) rfl)))
  have a1 := fun p k hk => d1.at0 (K := w2 ++ (w3 ++ (w4 ++ (rest)))) rfl p k hk
  have b1 := fun p L hk => d1.among0 (K := w2 ++ (w3 ++ (w4 ++ (rest)))) rfl p L hk
  have c1 := fun p L hk => d1.among0_false (K := w2 ++ (w3 ++ (w4 ++ (rest)))) rfl p L hk
  have g1 := fun K => d1.startOf_app (K := K) rfl
  have e1e := fun p => d1.stop_eq rfl p
  have s1_1 : ∀ p k, (PS.mk p (w1 ++ (w2 ++ (w3 ++ (w4 ++ (rest)))))).at? 1 k = (PS.mk p (w2 ++ (w3 ++ (w4 ++ (rest))))).at? 0 k := fun p k => d1.single_at (K := w2 ++ (w3 ++ (w4 ++ (rest)))) rfl p 0 k
  have t1_1 : ∀ p k, (PS.mk p (w1 ++ (w2 ++ (w3 ++ (w4 ++ (rest)))))).among 1 k = (PS.mk p (w2 ++ (w3 ++ (w4 ++ (rest))))).among 0 k := fun p k => d1.single_among (K := w2 ++ (w3 ++ (w4 ++ (rest)))) rfl p 0 k
  have s1_2 : ∀ p k, (PS.mk p (w1 ++ (w2 ++ (w3 ++ (w4 ++ (rest)))))).at? 2 k = (PS.mk p (w2 ++ (w3 ++ (w4 ++ (rest))))).at? 1 k := fun p k => d1.single_at (K := w2 ++ (w3 ++ (w4 ++ (rest)))) rfl p 1 k
  have t1_2 : ∀ p k, (PS.mk p (w1 ++ (w2 ++ (w3 ++ (w4 ++ (rest)))))).among 2 k = (PS.mk p (w2 ++ (w3 ++ (w4 ++ (rest))))).among 1 k := fun p k => d1.single_among (K := w2 ++ (w3 ++ (w4 ++ (rest)))) rfl p 1 k
  have s1_3 : ∀ p k, (PS.mk p (w1 ++ (w2 ++ (w3 ++ (w4 ++ (rest)))))).at? 3 k = (PS.mk p (w2 ++ (w3 ++ (w4 ++ (rest))))).at? 2 k := fun p k => d1.single_at (K := w2 ++ (w3 ++ (w4 ++ (rest)))) rfl p 2 k
  have t1_3 : ∀ p k, (PS.mk p (w1 ++ (w2 ++ (w3 ++ (w4 ++ (rest)))))).among 3 k = (PS.mk p (w2 ++ (w3 ++ (w4 ++ (rest))))).among 2 k := fun p k => d1.single_among (K := w2 ++ (w3 ++ (w4 ++ (rest)))) rfl p 2 k
  have s1_4 : ∀ p k, (PS.mk p (w1 ++ (w2 ++ (w3 ++ (w4 ++ (rest)))))).at? 4 k = (PS.mk p (w2 ++ (w3 ++ (w4 ++ (rest))))).at? 3 k := fun p k => d1.single_at (K := w2 ++ (w3 ++ (w4 ++ (rest)))) rfl p 3 k
  have t1_4 : ∀ p k, (PS.mk p (w1 ++ (w2 ++ (w3 ++ (w4 ++ (rest)))))).among 4 k = (PS.mk p (w2 ++ (w3 ++ (w4 ++ (rest))))).among 3 k := fun p k => d1.single_among (K := w2 ++ (w3 ++ (w4 ++ (rest)))) rfl p 3 k
  have u1 := fun p => d1.at0_true (K := w2 ++ (w3 ++ (w4 ++ (rest)))) (k := .number []) rfl rfl p
  have r2 : ∀ pp, parse fu (.opt .importDecls) ⟨pp, w2 ++ (w3 ++ (w4 ++ (rest)))⟩ = some (imps, ⟨stopFrom pp w2, w3 ++ (w4 ++ (rest))⟩) :=
    fun p => ih _ _ _ d2 rfl (by simp only [rank]; omega) p _ (.app' d3 (by decide) (.app d4 (by decide) rfl))
  have r3 : ∀ pp, parse fu (.opt .libraryDef) ⟨pp, w3 ++ (w4 ++ (rest))⟩ = some (lib, ⟨stopFrom pp w3, w4 ++ (rest)⟩) :=
    fun p => ih _ _ _ d3 rfl (by simp only [rank]; omega) p _ (.app d4 (by decide) rfl)
  have r4 : ∀ pp, parse fu .contractDef ⟨pp, w4 ++ (rest)⟩ = some (c, ⟨stopFrom pp w4, rest⟩) :=
    fun p => ih _ _ _ d4 rfl (by simp only [rank]; omega) p _ (hF.mono (by decide))
  have a4 := fun p k hk => d4.at0 (K := rest) rfl p k hk
  have b4 := fun p L hk => d4.among0 (K := rest) rfl p L hk
  have c4 := fun p L hk => d4.among0_false (K := rest) rfl p L hk
  have g4 := fun K => d4.startOf_app (K := K) rfl
  have e4e := fun p => d4.stop_eq rfl p
  simp (decide := true) [pProgram, expect_cons, PS.wrap, mkW, startOf_cons, stopOf, stopFrom, stopFrom_append, hA, hB, r1, a1, b1, c1, g1, e1e, s1_1, t1_1, s1_2, t1_2, s1_3, t1_3, s1_4, t1_4, u1, r2, r3, r4, a4, b4, c4, g4, e4e]

set_option autoImplicit true in
theorem c_libraryDef (ih : Comp fu)
    (d1 : Derives .typeName w1 l)
    (d2 : Derives (.star .librarySingle) w2 ds)
    (heq : w = ⟨s1, .library, e1⟩ :: (w1 ++ w2))
    (hl : 32 * w.length + rank .libraryDef ≤ fu + 1) (hF : Follow (bad .libraryDef) rest) :
    pLibraryDef (parse fu) ⟨po, w ++ rest⟩ = some (((mkW w ⟨l, ds⟩) : Val .libraryDef), ⟨stopFrom po w, rest⟩) := by
  have l1 := d1.length_pos rfl
  subst heq
  simp only [List.length_append, List.length_cons, List.length_nil, rank] at hl
  have hA := fun p k hk => hF.at p k hk
  have hB := fun p M hM => hF.among (M := M) p hM
  have r1 : ∀ pp, parse fu .typeName ⟨pp, w1 ++ (w2 ++ (rest))⟩ = some (l, ⟨stopFrom pp w1, w2 ++ (rest)⟩) :=
    fun p => ih _ _ _ d1 rfl (by simp only [rank]; omega) p _ (.app' d2 (by decide) (hF.mono (by decide)))
  have a1 := fun p k hk => d1.at0 (K := w2 ++ (rest)) rfl p k hk
  have b1 := fun p L hk => d1.among0 (K := w2 ++ (rest)) rfl p L hk
  have c1 := fun p L hk => d1.among0_false (K := w2 ++ (rest)) rfl p L hk
  have g1 := fun K => d1.startOf_app (K := K) rfl
  have e1e := fun p => d1.stop_eq rfl p
  have s1_1 : ∀ p k, (PS.mk p (w1 ++ (w2 ++ (rest)))).at? 1 k = (PS.mk p (w2 ++ (rest))).at? 0 k := fun p k => d1.single_at (K := w2 ++ (rest)) rfl p 0 k
  have t1_1 : ∀ p k, (PS.mk p (w1 ++ (w2 ++ (rest)))).among 1 k = (PS.mk p (w2 ++ (rest))).among 0 k := fun p k => d1.single_among (K := w2 ++ (rest)) rfl p 0 k
  have s1_2 : ∀ p k, (PS.mk p (w1 ++ (w2 ++ (rest)))).at? 2 k = (PS.mk p (w2 ++ (rest))).at? 1 k := fun p k => d1.single_at (K := w2 ++ (rest)) rfl p 1 k
  have t1_2 : ∀ p k, (PS.mk p (w1 ++ (w2 ++ (rest)))).among 2 k = (PS.mk p (w2 ++ (rest))).among 1 k := fun p k => d1.single_among (K := w2 ++ (rest)) rfl p 1 k
  have s1_3 : ∀ p k, (PS.mk p (w1 ++ (w2 ++ (rest)))).at? 3 k = (PS.mk p (w2 ++ (rest))).at? 2 k := fun p k => d1.single_at (K := w2 ++ (rest)) rfl p 2 k
  have t1_3 : ∀ p k, (PS.mk p (w1 ++ (w2 ++ (rest)))).among 3 k = (PS.mk p (w2 ++ (rest))).among 2 k := fun p k => d1.single_among (K := w2 ++ (rest)) rfl p 2 k
  have s1_4 : ∀ p k, (PS.mk p (w1 ++ (w2 ++ (rest)))).at? 4 k = (PS.mk p (w2 ++ (rest))).at? 3 k := fun p k => d1.single_at (K := w2 ++ (rest)) rfl p 3 k
  have t1_4 : ∀ p k, (PS.mk p (w1 ++ (w2 ++ (rest)))).among 4 k = (PS.mk p (w2 ++ (rest))).among 3 k := fun p k => d1.single_among (K := w2 ++ (rest)) rfl p 3 k
  have r2 : ∀ pp, parse fu (.star .librarySingle) ⟨pp, w2 ++ (rest)⟩ = some (ds, ⟨stopFrom pp w2, rest⟩) :=
    fun p => ih _ _ _ d2 rfl (by simp only [rank]; omega) p _ (hF.mono (by decide))
  simp (decide := true) [pLibraryDef, expect_cons, PS.wrap, mkW, startOf_cons, stopOf, stopFrom, stopFrom_append, hA, hB, r1, a1, b1, c1, g1, e1e, s1_1, t1_1, s1_2, t1_2, s1_3, t1_3, s1_4, t1_4, r2]

set_option autoImplicit true in
theorem c_libLet (ih : Comp fu)
    (d1 : Derives .regularId w1 x)
    (d2 : Derives (.opt .typeAnn) w2 ta)
    (d3 : Derives .fullExpr w3 ex)
    (heq : w = ⟨s1, .let_, e1⟩ :: (w1 ++ (w2 ++ ⟨s2, .equals, e2⟩ :: w3)))
    (hl : 32 * w.length + rank .librarySingle ≤ fu + 1) (hF : Follow (bad .librarySingle) rest) :
    pLibrarySingle (parse fu) ⟨po, w ++ rest⟩ = some (((mkW w (.letDefinition x ta ex)) : Val .librarySingle), ⟨stopFrom po w, rest⟩) := by
  have l1 := d1.length_pos rfl
  have l3 := d3.length_pos rfl
  subst heq
  simp only [List.length_append, List.length_cons, List.length_nil, rank] at hl
  have hA := fun p k hk => hF.at p k hk
  have hB := fun p M hM => hF.among (M := M) p hM
  have r1 : ∀ pp, parse fu .regularId ⟨pp, w1 ++ (w2 ++ (⟨s2, .equals, e2⟩ :: (w3 ++ (rest))))⟩ = some (x, ⟨stopFrom pp w1, w2 ++ (⟨s2, .equals, e2⟩ :: (w3 ++ (rest)))⟩) :=
    fun p => ih _ _ _ d1 rfl (by simp only [rank]; omega) p _ (.app' d2 (by decide) (.tok (by decide)))
  have a1 := fun p k hk => d1.at0 (K := w2 ++ (⟨s2, .equals, e2⟩ :: (w3 ++ (rest)))) rfl p k hk
  have b1 := fun p L hk => d1.among0 (K := w2 ++ (⟨s2, .equals, e2⟩ :: (w3 ++ (rest)))) rfl p L hk
  have c1 := fun p L hk => d1.among0_false (K := w2 ++ (⟨s2, .equals, e2⟩ :: (w3 ++ (rest)))) rfl p L hk
  have g1 := fun K => d1.startOf_app (K := K) rfl
  have e1e := fun p => d1.stop_eq rfl p
  have s1_1 : ∀ p k, (PS.mk p (w1 ++ (w2 ++ (⟨s2, .equals, e2⟩ :: (w3 ++ (rest)))))).at? 1 k = (PS.mk p (w2 ++ (⟨s2, .equals, e2⟩ :: (w3 ++ (rest))))).at? 0 k := fun p k => d1.single_at (K := w2 ++ (⟨s2, .equals, e2⟩ :: (w3 ++ (rest)))) rfl p 0 k
  have t1_1 : ∀ p k, (PS.mk p (w1 ++ (w2 ++ (⟨s2, .equals, e2⟩ :: (w3 ++ (rest)))))).among 1 k = (PS.mk p (w2 ++ (⟨s2, .equals, e2⟩ :: (w3 ++ (rest))))).among 0 k := fun p k => d1.single_among (K := w2 ++ (⟨s2, .equals, e2⟩ :: (w3 ++ (rest)))) rfl p 0 k
  have s1_2 : ∀ p k, (PS.mk p (w1 ++ (w2 ++ (⟨s2, .equals, e2⟩ :: (w3 ++ (rest)))))).at? 2 k = (PS.mk p (w2 ++ (⟨s2, .equals, e2⟩ :: (w3 ++ (rest))))).at? 1 k := fun p k => d1.single_at (K := w2 ++ (⟨s2, .equals, e2⟩ :: (w3 ++ (rest)))) rfl p 1 k
  have t1_2 : ∀ p k, (PS.mk p (w1 ++ (w2 ++ (⟨s2, .equals, e2⟩ :: (w3 ++ (rest)))))).among 2 k = (PS.mk p (w2 ++ (⟨s2, .equals, e2⟩ :: (w3 ++ (rest))))).among 1 k := fun p k => d1.single_among (K := w2 ++ (⟨s2, .equals, e2⟩ :: (w3 ++ (rest)))) rfl p 1 k
  have s1_3 : ∀ p k, (PS.mk p (w1 ++ (w2 ++ (⟨s2, .equals, e2⟩ :: (w3 ++ (rest)))))).at? 3 k = (PS.mk p (w2 ++ (⟨s2, .equals, e2⟩ :: (w3 ++ (rest))))).at? 2 k := fun p k => d1.single_at (K := w2 ++ (⟨s2, .equals, e2⟩ :: (w3 ++ (rest)))) rfl p 2 k
  have t1_3 : ∀ p k, (PS.mk p (w1 ++ (w2 ++ (⟨s2, .equals, e2⟩ :: (w3 ++ (rest)))))).among 3 k = (PS.mk p (w2 ++ (⟨s2, .equals, e2⟩ :: (w3 ++ (rest))))).among 2 k := fun p k => d1.single_among (K := w2 ++ (⟨s2, .equals, e2⟩ :: (w3 ++ (rest)))) rfl p 2 k
  have s1_4 : ∀ p k, (PS.mk p (w1 ++ (w2 ++ (⟨s2, .equals, e2⟩ :: (w3 ++ (rest)))))).at? 4 k = (PS.mk p (w2 ++ (⟨s2, .equals, e2⟩ :: (w3 ++ (rest))))).at? 3 k := fun p k => d1.single_at (K := w2 ++ (⟨s2, .equals, e2⟩ :: (w3 ++ (rest)))) rfl p 3 k
  have t1_4 : ∀ p k, (PS.mk p (w1 ++ (w2 ++ (⟨s2, .equals, e2⟩ :: (w3 ++ (rest)))))).among 4 k = (PS.mk p (w2 ++ (⟨s2, .equals, e2⟩ :: (w3 ++ (rest))))).among 3 k := fun p k => d1.single_among (K := w2 ++ (⟨s2, .equals, e2⟩ :: (w3 ++ (rest)))) rfl p 3 k
  have u1 := fun p => d1.at0_true (K := w2 ++ (⟨s2, .equals, e2⟩ :: (w3 ++ (rest)))) (k := .identifier []) rfl rfl p
  have r2 : ∀ pp, parse fu (.opt .typeAnn) ⟨pp, w2 ++ (⟨s2, .equals, e2⟩ :: (w3 ++ (rest)))⟩ = some (ta, ⟨stopFrom pp w2, ⟨s2, .equals, e2⟩ :: (w3 ++ (rest))⟩) :=
    fun p => ih _ _ _ d2 rfl (by simp only [rank]; omega) p _ (.tok (by decide))
  have r3 : ∀ pp, parse fu .fullExpr ⟨pp, w3 ++ (rest)⟩ = some (ex, ⟨stopFrom pp w3, rest⟩) :=
    fun p => ih _ _ _ d3 rfl (by simp only [rank]; omega) p _ (hF.mono (by decide))
  have a3 := fun p k hk => d3.at0 (K := rest) rfl p k hk
  have b3 := fun p L hk => d3.among0 (K := rest) rfl p L hk
  have c3 := fun p L hk => d3.among0_false (K := rest) rfl p L hk
  have g3 := fun K => d3.startOf_app (K := K) rfl
  have e3e := fun p => d3.stop_eq rfl p
  simp (decide := true) [pLibrarySingle, expect_cons, PS.wrap, mkW, startOf_cons, stopOf, stopFrom, stopFrom_append, hA, hB, r1, a1, b1, c1, g1, e1e, s1_1, t1_1, s1_2, t1_2, s1_3, t1_3, s1_4, t1_4, u1, r2, r3, a3, b3, c3, g3, e3e]

set_option autoImplicit true in
theorem c_libType (ih : Comp fu)
    (d1 : Derives .typeName w1 n)
    (heq : w = ⟨s1, .type, e1⟩ :: w1)
    (hl : 32 * w.length + rank .librarySingle ≤ fu + 1) (hF : Follow (bad .librarySingle) rest) :
    pLibrarySingle (parse fu) ⟨po, w ++ rest⟩ = some (((mkW w (.typeDefinition n none)) : Val .librarySingle), ⟨stopFrom po w, rest⟩) := by
  have l1 := d1.length_pos rfl
  subst heq
  simp only [List.length_append, List.length_cons, List.length_nil, rank] at hl
  have hA := fun p k hk => hF.at p k hk
  have hB := fun p M hM => hF.among (M := M) p hM
  have r1 : ∀ pp, parse fu .typeName ⟨pp, w1 ++ (rest)⟩ = some (n, ⟨stopFrom pp w1, rest⟩) :=
    fun p => ih _ _ _ d1 rfl (by simp only [rank]; omega) p _ (hF.mono (by decide))
  have a1 := fun p k hk => d1.at0 (K := rest) rfl p k hk
  have b1 := fun p L hk => d1.among0 (K := rest) rfl p L hk
  have c1 := fun p L hk => d1.among0_false (K := rest) rfl p L hk
  have g1 := fun K => d1.startOf_app (K := K) rfl
  have e1e := fun p => d1.stop_eq rfl p
  have s1_1 : ∀ p k, (PS.mk p (w1 ++ (rest))).at? 1 k = (PS.mk p (rest)).at? 0 k := fun p k => d1.single_at (K := rest) rfl p 0 k
  have t1_1 : ∀ p k, (PS.mk p (w1 ++ (rest))).among 1 k = (PS.mk p (rest)).among 0 k := fun p k => d1.single_among (K := rest) rfl p 0 k
  have s1_2 : ∀ p k, (PS.mk p (w1 ++ (rest))).at? 2 k = (PS.mk p (rest)).at? 1 k := fun p k => d1.single_at (K := rest) rfl p 1 k
  have t1_2 : ∀ p k, (PS.mk p (w1 ++ (rest))).among 2 k = (PS.mk p (rest)).among 1 k := fun p k => d1.single_among (K := rest) rfl p 1 k
  have s1_3 : ∀ p k, (PS.mk p (w1 ++ (rest))).at? 3 k = (PS.mk p (rest)).at? 2 k := fun p k => d1.single_at (K := rest) rfl p 2 k
  have t1_3 : ∀ p k, (PS.mk p (w1 ++ (rest))).among 3 k = (PS.mk p (rest)).among 2 k := fun p k => d1.single_among (K := rest) rfl p 2 k
  have s1_4 : ∀ p k, (PS.mk p (w1 ++ (rest))).at? 4 k = (PS.mk p (rest)).at? 3 k := fun p k => d1.single_at (K := rest) rfl p 3 k
  have t1_4 : ∀ p k, (PS.mk p (w1 ++ (rest))).among 4 k = (PS.mk p (rest)).among 3 k := fun p k => d1.single_among (K := rest) rfl p 3 k
  simp (decide := true) [pLibrarySingle, expect_cons, PS.wrap, mkW, startOf_cons, stopOf, stopFrom, stopFrom_append, hA, hB, r1, a1, b1, c1, g1, e1e, s1_1, t1_1, s1_2, t1_2, s1_3, t1_3, s1_4, t1_4]

set_option autoImplicit true in
theorem c_libTypeAlts (ih : Comp fu)
    (d1 : Derives .typeName w1 n)
    (d2 : Derives (.plus .typeAlt) w2 alts)
    (heq : w = ⟨s1, .type, e1⟩ :: (w1 ++ ⟨s2, .equals, e2⟩ :: w2))
    (hl : 32 * w.length + rank .librarySingle ≤ fu + 1) (hF : Follow (bad .librarySingle) rest) :
    pLibrarySingle (parse fu) ⟨po, w ++ rest⟩ = some (((mkW w (.typeDefinition n (some alts))) : Val .librarySingle), ⟨stopFrom po w, rest⟩) := by
  have l1 := d1.length_pos rfl
  have l2 := d2.length_pos rfl
  subst heq
  simp only [List.length_append, List.length_cons, List.length_nil, rank] at hl
  have hA := fun p k hk => hF.at p k hk
  have hB := fun p M hM => hF.among (M := M) p hM
  have r1 : ∀ pp, parse fu .typeName ⟨pp, w1 ++ (⟨s2, .equals, e2⟩ :: (w2 ++ (rest)))⟩ = some (n, ⟨stopFrom pp w1, ⟨s2, .equals, e2⟩ :: (w2 ++ (rest))⟩) :=
    fun p => ih _ _ _ d1 rfl (by simp only [rank]; omega) p _ (.tok (by decide))
  have a1 := fun p k hk => d1.at0 (K := ⟨s2, .equals, e2⟩ :: (w2 ++ (rest))) rfl p k hk
  have b1 := fun p L hk => d1.among0 (K := ⟨s2, .equals, e2⟩ :: (w2 ++ (rest))) rfl p L hk
  have c1 := fun p L hk => d1.among0_false (K := ⟨s2, .equals, e2⟩ :: (w2 ++ (rest))) rfl p L hk
  have g1 := fun K => d1.startOf_app (K := K) rfl
  have e1e := fun p => d1.stop_eq rfl p
  have s1_1 : ∀ p k, (PS.mk p (w1 ++ (⟨s2, .equals, e2⟩ :: (w2 ++ (rest))))).at? 1 k = (PS.mk p (⟨s2, .equals, e2⟩ :: (w2 ++ (rest)))).at? 0 k := fun p k => d1.single_at (K := ⟨s2, .equals, e2⟩ :: (w2 ++ (rest))) rfl p 0 k
  have t1_1 : ∀ p k, (PS.mk p (w1 ++ (⟨s2, .equals, e2⟩ :: (w2 ++ (rest))))).among 1 k = (PS.mk p (⟨s2, .equals, e2⟩ :: (w2 ++ (rest)))).among 0 k := fun p k => d1.single_among (K := ⟨s2, .equals, e2⟩ :: (w2 ++ (rest))) rfl p 0 k
  have s1_2 : ∀ p k, (PS.mk p (w1 ++ (⟨s2, .equals, e2⟩ :: (w2 ++ (rest))))).at? 2 k = (PS.mk p (⟨s2, .equals, e2⟩ :: (w2 ++ (rest)))).at? 1 k := fun p k => d1.single_at (K := ⟨s2, .equals, e2⟩ :: (w2 ++ (rest))) rfl p 1 k
  have t1_2 : ∀ p k, (PS.mk p (w1 ++ (⟨s2, .equals, e2⟩ :: (w2 ++ (rest))))).among 2 k = (PS.mk p (⟨s2, .equals, e2⟩ :: (w2 ++ (rest)))).among 1 k := fun p k => d1.single_among (K := ⟨s2, .equals, e2⟩ :: (w2 ++ (rest))) rfl p 1 k
  have s1_3 : ∀ p k, (PS.mk p (w1 ++ (⟨s2, .equals, e2⟩ :: (w2 ++ (rest))))).at? 3 k = (PS.mk p (⟨s2, .equals, e2⟩ :: (w2 ++ (rest)))).at? 2 k := fun p k => d1.single_at (K := ⟨s2, .equals, e2⟩ :: (w2 ++ (rest))) rfl p 2 k
  have t1_3 : ∀ p k, (PS.mk p (w1 ++ (⟨s2, .equals, e2⟩ :: (w2 ++ (rest))))).among 3 k = (PS.mk p (⟨s2, .equals, e2⟩ :: (w2 ++ (rest)))).among 2 k := fun p k => d1.single_among (K := ⟨s2, .equals, e2⟩ :: (w2 ++ (rest))) rfl p 2 k
  have s1_4 : ∀ p k, (PS.mk p (w1 ++ (⟨s2, .equals, e2⟩ :: (w2 ++ (rest))))).at? 4 k = (PS.mk p (⟨s2, .equals, e2⟩ :: (w2 ++ (rest)))).at? 3 k := fun p k => d1.single_at (K := ⟨s2, .equals, e2⟩ :: (w2 ++ (rest))) rfl p 3 k
  have t1_4 : ∀ p k, (PS.mk p (w1 ++ (⟨s2, .equals, e2⟩ :: (w2 ++ (rest))))).among 4 k = (PS.mk p (⟨s2, .equals, e2⟩ :: (w2 ++ (rest)))).among 3 k := fun p k => d1.single_among (K := ⟨s2, .equals, e2⟩ :: (w2 ++ (rest))) rfl p 3 k
  have r2 : ∀ pp, parse fu (.plus .typeAlt) ⟨pp, w2 ++ (rest)⟩ = some (alts, ⟨stopFrom pp w2, rest⟩) :=
    fun p => ih _ _ _ d2 rfl (by simp only [rank]; omega) p _ (hF.mono (by decide))
  have a2 := fun p k hk => d2.at0 (K := rest) rfl p k hk
  have b2 := fun p L hk => d2.among0 (K := rest) rfl p L hk
  have c2 := fun p L hk => d2.among0_false (K := rest) rfl p L hk
  have g2 := fun K => d2.startOf_app (K := K) rfl
  have e2e := fun p => d2.stop_eq rfl p
  simp (decide := true) [pLibrarySingle, expect_cons, PS.wrap, mkW, startOf_cons, stopOf, stopFrom, stopFrom_append, hA, hB, r1, a1, b1, c1, g1, e1e, s1_1, t1_1, s1_2, t1_2, s1_3, t1_3, s1_4, t1_4, r2, a2, b2, c2, g2, e2e]

set_option autoImplicit true in
theorem c_typedId (ih : Comp fu)
    (d1 : Derives .regularId w1 x)
    (d2 : Derives .typeAnn w2 a)
    (heq : w = w1 ++ w2)
    (hl : 32 * w.length + rank .typedId ≤ fu + 1) (hF : Follow (bad .typedId) rest) :
    pTypedId (parse fu) ⟨po, w ++ rest⟩ = some (((mkW w ⟨x, a⟩) : Val .typedId), ⟨stopFrom po w, rest⟩) := by
  have l1 := d1.length_pos rfl
  have l2 := d2.length_pos rfl
  subst heq
  simp only [List.length_append, List.length_cons, List.length_nil, rank] at hl
  have hA := fun p k hk => hF.at p k hk
  have hB := fun p M hM => hF.among (M := M) p hM
  have r1 : ∀ pp, parse fu .regularId ⟨pp, w1 ++ (w2 ++ (rest))⟩ = some (x, ⟨stopFrom pp w1, w2 ++ (rest)⟩) :=
    fun p => ih _ _ _ d1 rfl (by simp only [rank]; omega) p _ (.app d2 (by decide) rfl)
  have a1 := fun p k hk => d1.at0 (K := w2 ++ (rest)) rfl p k hk
  have b1 := fun p L hk => d1.among0 (K := w2 ++ (rest)) rfl p L hk
  have c1 := fun p L hk => d1.among0_false (K := w2 ++ (rest)) rfl p L hk
  have g1 := fun K => d1.startOf_app (K := K) rfl
  have e1e := fun p => d1.stop_eq rfl p
  have s1_1 : ∀ p k, (PS.mk p (w1 ++ (w2 ++ (rest)))).at? 1 k = (PS.mk p (w2 ++ (rest))).at? 0 k := fun p k => d1.single_at (K := w2 ++ (rest)) rfl p 0 k
  have t1_1 : ∀ p k, (PS.mk p (w1 ++ (w2 ++ (rest)))).among 1 k = (PS.mk p (w2 ++ (rest))).among 0 k := fun p k => d1.single_among (K := w2 ++ (rest)) rfl p 0 k
  have s1_2 : ∀ p k, (PS.mk p (w1 ++ (w2 ++ (rest)))).at? 2 k = (PS.mk p (w2 ++ (rest))).at? 1 k := fun p k => d1.single_at (K := w2 ++ (rest)) rfl p 1 k
  have t1_2 : ∀ p k, (PS.mk p (w1 ++ (w2 ++ (rest)))).among 2 k = (PS.mk p (w2 ++ (rest))).among 1 k := fun p k => d1.single_among (K := w2 ++ (rest)) rfl p 1 k
  have s1_3 : ∀ p k, (PS.mk p (w1 ++ (w2 ++ (rest)))).at? 3 k = (PS.mk p (w2 ++ (rest))).at? 2 k := fun p k => d1.single_at (K := w2 ++ (rest)) rfl p 2 k
  have t1_3 : ∀ p k, (PS.mk p (w1 ++ (w2 ++ (rest)))).among 3 k = (PS.mk p (w2 ++ (rest))).among 2 k := fun p k => d1.single_among (K := w2 ++ (rest)) rfl p 2 k
  have s1_4 : ∀ p k, (PS.mk p (w1 ++ (w2 ++ (rest)))).at? 4 k = (PS.mk p (w2 ++ (rest))).at? 3 k := fun p k => d1.single_at (K := w2 ++ (rest)) rfl p 3 k
  have t1_4 : ∀ p k, (PS.mk p (w1 ++ (w2 ++ (rest)))).among 4 k = (PS.mk p (w2 ++ (rest))).among 3 k := fun p k => d1.single_among (K := w2 ++ (rest)) rfl p 3 k
  have u1 := fun p => d1.at0_true (K := w2 ++ (rest)) (k := .identifier []) rfl rfl p
  have r2 : ∀ pp, parse fu .typeAnn ⟨pp, w2 ++ (rest)⟩ = some (a, ⟨stopFrom pp w2, rest⟩) :=
    fun p => ih _ _ _ d2 rfl (by simp only [rank]; omega) p _ (hF.mono (by decide))
  have a2 := fun p k hk => d2.at0 (K := rest) rfl p k hk
  have b2 := fun p L hk => d2.among0 (K := rest) rfl p L hk
  have c2 := fun p L hk => d2.among0_false (K := rest) rfl p L hk
  have g2 := fun K => d2.startOf_app (K := K) rfl
  have e2e := fun p => d2.stop_eq rfl p
  simp (decide := true) [pTypedId, expect_cons, PS.wrap, mkW, startOf_cons, stopOf, stopFrom, stopFrom_append, hA, hB, r1, a1, b1, c1, g1, e1e, s1_1, t1_1, s1_2, t1_2, s1_3, t1_3, s1_4, t1_4, u1, r2, a2, b2, c2, g2, e2e]

set_option autoImplicit true in
theorem c_typeAnn (ih : Comp fu)
    (d1 : Derives .scillaType w1 t)
    (heq : w = ⟨s1, .colon, e1⟩ :: w1)
    (hl : 32 * w.length + rank .typeAnn ≤ fu + 1) (hF : Follow (bad .typeAnn) rest) :
    pTypeAnn (parse fu) ⟨po, w ++ rest⟩ = some (((mkW w ⟨t⟩) : Val .typeAnn), ⟨stopFrom po w, rest⟩) := by
  have l1 := d1.length_pos rfl
  subst heq
  simp only [List.length_append, List.length_cons, List.length_nil, rank] at hl
  have hA := fun p k hk => hF.at p k hk
  have hB := fun p M hM => hF.among (M := M) p hM
  have r1 : ∀ pp, parse fu .scillaType ⟨pp, w1 ++ (rest)⟩ = some (t, ⟨stopFrom pp w1, rest⟩) :=
    fun p => ih _ _ _ d1 rfl (by simp only [rank]; omega) p _ (hF.mono (by decide))
  have a1 := fun p k hk => d1.at0 (K := rest) rfl p k hk
  have b1 := fun p L hk => d1.among0 (K := rest) rfl p L hk
  have c1 := fun p L hk => d1.among0_false (K := rest) rfl p L hk
  have g1 := fun K => d1.startOf_app (K := K) rfl
  have e1e := fun p => d1.stop_eq rfl p
  simp (decide := true) [pTypeAnn, expect_cons, PS.wrap, mkW, startOf_cons, stopOf, stopFrom, stopFrom_append, hA, hB, r1, a1, b1, c1, g1, e1e]

set_option autoImplicit true in
theorem c_altType (ih : Comp fu)
    (d1 : Derives .typeName w1 n)
    (heq : w = ⟨s1, .pipe, e1⟩ :: w1)
    (hl : 32 * w.length + rank .typeAlt ≤ fu + 1) (hF : Follow (bad .typeAlt) rest) :
    pTypeAlt (parse fu) ⟨po, w ++ rest⟩ = some (((mkW w (.clauseType n)) : Val .typeAlt), ⟨stopFrom po w, rest⟩) := by
  have l1 := d1.length_pos rfl
  subst heq
  simp only [List.length_append, List.length_cons, List.length_nil, rank] at hl
  have hA := fun p k hk => hF.at p k hk
  have hB := fun p M hM => hF.among (M := M) p hM
  have r1 : ∀ pp, parse fu .typeName ⟨pp, w1 ++ (rest)⟩ = some (n, ⟨stopFrom pp w1, rest⟩) :=
    fun p => ih _ _ _ d1 rfl (by simp only [rank]; omega) p _ (hF.mono (by decide))
  have a1 := fun p k hk => d1.at0 (K := rest) rfl p k hk
  have b1 := fun p L hk => d1.among0 (K := rest) rfl p L hk
  have c1 := fun p L hk => d1.among0_false (K := rest) rfl p L hk
  have g1 := fun K => d1.startOf_app (K := K) rfl
  have e1e := fun p => d1.stop_eq rfl p
  have s1_1 : ∀ p k, (PS.mk p (w1 ++ (rest))).at? 1 k = (PS.mk p (rest)).at? 0 k := fun p k => d1.single_at (K := rest) rfl p 0 k
  have t1_1 : ∀ p k, (PS.mk p (w1 ++ (rest))).among 1 k = (PS.mk p (rest)).among 0 k := fun p k => d1.single_among (K := rest) rfl p 0 k
  have s1_2 : ∀ p k, (PS.mk p (w1 ++ (rest))).at? 2 k = (PS.mk p (rest)).at? 1 k := fun p k => d1.single_at (K := rest) rfl p 1 k
  have t1_2 : ∀ p k, (PS.mk p (w1 ++ (rest))).among 2 k = (PS.mk p (rest)).among 1 k := fun p k => d1.single_among (K := rest) rfl p 1 k
  have s1_3 : ∀ p k, (PS.mk p (w1 ++ (rest))).at? 3 k = (PS.mk p (rest)).at? 2 k := fun p k => d1.single_at (K := rest) rfl p 2 k
  have t1_3 : ∀ p k, (PS.mk p (w1 ++ (rest))).among 3 k = (PS.mk p (rest)).among 2 k := fun p k => d1.single_among (K := rest) rfl p 2 k
  have s1_4 : ∀ p k, (PS.mk p (w1 ++ (rest))).at? 4 k = (PS.mk p (rest)).at? 3 k := fun p k => d1.single_at (K := rest) rfl p 3 k
  have t1_4 : ∀ p k, (PS.mk p (w1 ++ (rest))).among 4 k = (PS.mk p (rest)).among 3 k := fun p k => d1.single_among (K := rest) rfl p 3 k
  simp (decide := true) [pTypeAlt, expect_cons, PS.wrap, mkW, startOf_cons, stopOf, stopFrom, stopFrom_append, hA, hB, r1, a1, b1, c1, g1, e1e, s1_1, t1_1, s1_2, t1_2, s1_3, t1_3, s1_4, t1_4]

set_option autoImplicit true in
theorem c_altTypeArgs (ih : Comp fu)
    (d1 : Derives .typeName w1 n)
    (d2 : Derives (.plus .typeArg) w2 args)
    (heq : w = ⟨s1, .pipe, e1⟩ :: (w1 ++ ⟨s2, .of_, e2⟩ :: w2))
    (hl : 32 * w.length + rank .typeAlt ≤ fu + 1) (hF : Follow (bad .typeAlt) rest) :
    pTypeAlt (parse fu) ⟨po, w ++ rest⟩ = some (((mkW w (.clauseTypeWithArgs n args)) : Val .typeAlt), ⟨stopFrom po w, rest⟩) := by
  have l1 := d1.length_pos rfl
  have l2 := d2.length_pos rfl
  subst heq
  simp only [List.length_append, List.length_cons, List.length_nil, rank] at hl
  have hA := fun p k hk => hF.at p k hk
  have hB := fun p M hM => hF.among (M := M) p hM
  have r1 : ∀ pp, parse fu .typeName ⟨pp, w1 ++ (⟨s2, .of_, e2⟩ :: (w2 ++ (rest)))⟩ = some (n, ⟨stopFrom pp w1, ⟨s2, .of_, e2⟩ :: (w2 ++ (rest))⟩) :=
    fun p => ih _ _ _ d1 rfl (by simp only [rank]; omega) p _ (.tok (by decide))
  have a1 := fun p k hk => d1.at0 (K := ⟨s2, .of_, e2⟩ :: (w2 ++ (rest))) rfl p k hk
  have b1 := fun p L hk => d1.among0 (K := ⟨s2, .of_, e2⟩ :: (w2 ++ (rest))) rfl p L hk
  have c1 := fun p L hk => d1.among0_false (K := ⟨s2, .of_, e2⟩ :: (w2 ++ (rest))) rfl p L hk
  have g1 := fun K => d1.startOf_app (K := K) rfl
  have e1e := fun p => d1.stop_eq rfl p
  have s1_1 : ∀ p k, (PS.mk p (w1 ++ (⟨s2, .of_, e2⟩ :: (w2 ++ (rest))))).at? 1 k = (PS.mk p (⟨s2, .of_, e2⟩ :: (w2 ++ (rest)))).at? 0 k := fun p k => d1.single_at (K := ⟨s2, .of_, e2⟩ :: (w2 ++ (rest))) rfl p 0 k
  have t1_1 : ∀ p k, (PS.mk p (w1 ++ (⟨s2, .of_, e2⟩ :: (w2 ++ (rest))))).among 1 k = (PS.mk p (⟨s2, .of_, e2⟩ :: (w2 ++ (rest)))).among 0 k := fun p k => d1.single_among (K := ⟨s2, .of_, e2⟩ :: (w2 ++ (rest))) rfl p 0 k
  have s1_2 : ∀ p k, (PS.mk p (w1 ++ (⟨s2, .of_, e2⟩ :: (w2 ++ (rest))))).at? 2 k = (PS.mk p (⟨s2, .of_, e2⟩ :: (w2 ++ (rest)))).at? 1 k := fun p k => d1.single_at (K := ⟨s2, .of_, e2⟩ :: (w2 ++ (rest))) rfl p 1 k
  have t1_2 : ∀ p k, (PS.mk p (w1 ++ (⟨s2, .of_, e2⟩ :: (w2 ++ (rest))))).among 2 k = (PS.mk p (⟨s2, .of_, e2⟩ :: (w2 ++ (rest)))).among 1 k := fun p k => d1.single_among (K := ⟨s2, .of_, e2⟩ :: (w2 ++ (rest))) rfl p 1 k
  have s1_3 : ∀ p k, (PS.mk p (w1 ++ (⟨s2, .of_, e2⟩ :: (w2 ++ (rest))))).at? 3 k = (PS.mk p (⟨s2, .of_, e2⟩ :: (w2 ++ (rest)))).at? 2 k := fun p k => d1.single_at (K := ⟨s2, .of_, e2⟩ :: (w2 ++ (rest))) rfl p 2 k
  have t1_3 : ∀ p k, (PS.mk p (w1 ++ (⟨s2, .of_, e2⟩ :: (w2 ++ (rest))))).among 3 k = (PS.mk p (⟨s2, .of_, e2⟩ :: (w2 ++ (rest)))).among 2 k := fun p k => d1.single_among (K := ⟨s2, .of_, e2⟩ :: (w2 ++ (rest))) rfl p 2 k
  have s1_4 : ∀ p k, (PS.mk p (w1 ++ (⟨s2, .of_, e2⟩ :: (w2 ++ (rest))))).at? 4 k = (PS.mk p (⟨s2, .of_, e2⟩ :: (w2 ++ (rest)))).at? 3 k := fun p k => d1.single_at (K := ⟨s2, .of_, e2⟩ :: (w2 ++ (rest))) rfl p 3 k
  have t1_4 : ∀ p k, (PS.mk p (w1 ++ (⟨s2, .of_, e2⟩ :: (w2 ++ (rest))))).among 4 k = (PS.mk p (⟨s2, .of_, e2⟩ :: (w2 ++ (rest)))).among 3 k := fun p k => d1.single_among (K := ⟨s2, .of_, e2⟩ :: (w2 ++ (rest))) rfl p 3 k
  have r2 : ∀ pp, parse fu (.plus .typeArg) ⟨pp, w2 ++ (rest)⟩ = some (args, ⟨stopFrom pp w2, rest⟩) :=
    fun p => ih _ _ _ d2 rfl (by simp only [rank]; omega) p _ (hF.mono (by decide))
  have a2 := fun p k hk => d2.at0 (K := rest) rfl p k hk
  have b2 := fun p L hk => d2.among0 (K := rest) rfl p L hk
  have c2 := fun p L hk => d2.among0_false (K := rest) rfl p L hk
  have g2 := fun K => d2.startOf_app (K := K) rfl
  have e2e := fun p => d2.stop_eq rfl p
  simp (decide := true) [pTypeAlt, expect_cons, PS.wrap, mkW, startOf_cons, stopOf, stopFrom, stopFrom_append, hA, hB, r1, a1, b1, c1, g1, e1e, s1_1, t1_1, s1_2, t1_2, s1_3, t1_3, s1_4, t1_4, r2, a2, b2, c2, g2, e2e]

set_option autoImplicit true in
theorem c_mvWithArgs (ih : Comp fu)
    (d1 : Derives .metaId w1 m)
    (d2 : Derives (.plus .mapValueArgs) w2 args)
    (heq : w = w1 ++ w2)
    (hl : 32 * w.length + rank .mapValueAllowing ≤ fu + 1) (hF : Follow (bad .mapValueAllowing) rest) :
    pMapValueAllowing (parse fu) ⟨po, w ++ rest⟩ = some (((mkW w (.typeMapValueWithArgs m args)) : Val .mapValueAllowing), ⟨stopFrom po w, rest⟩) := by
  have l1 := d1.length_pos rfl
  have l2 := d2.length_pos rfl
  subst heq
  simp only [List.length_append, List.length_cons, List.length_nil, rank] at hl
  have hA := fun p k hk => hF.at p k hk
  have hB := fun p M hM => hF.among (M := M) p hM
  have r1 : ∀ pp, parse fu .metaId ⟨pp, w1 ++ (w2 ++ (rest))⟩ = some (m, ⟨stopFrom pp w1, w2 ++ (rest)⟩) :=
    fun p => ih _ _ _ d1 rfl (by simp only [rank]; omega) p _ (.app d2 (by decide) rfl)
  have a1 := fun p k hk => d1.at0 (K := w2 ++ (rest)) rfl p k hk
  have b1 := fun p L hk => d1.among0 (K := w2 ++ (rest)) rfl p L hk
  have c1 := fun p L hk => d1.among0_false (K := w2 ++ (rest)) rfl p L hk
  have g1 := fun K => d1.startOf_app (K := K) rfl
  have e1e := fun p => d1.stop_eq rfl p
  have v1 := fun p => isAddr_metaId (K := w2 ++ (rest)) d1 p (.app d2 (by decide) rfl)
  have r2 : ∀ pp, parse fu (.plus .mapValueArgs) ⟨pp, w2 ++ (rest)⟩ = some (args, ⟨stopFrom pp w2, rest⟩) :=
    fun p => ih _ _ _ d2 rfl (by simp only [rank]; omega) p _ (hF.mono (by decide))
  have a2 := fun p k hk => d2.at0 (K := rest) rfl p k hk
  have b2 := fun p L hk => d2.among0 (K := rest) rfl p L hk
  have c2 := fun p L hk => d2.among0_false (K := rest) rfl p L hk
  have g2 := fun K => d2.startOf_app (K := K) rfl
  have e2e := fun p => d2.stop_eq rfl p
  simp (decide := true) [pMapValueAllowing, expect_cons, PS.wrap, mkW, startOf_cons, stopOf, stopFrom, stopFrom_append, hA, hB, r1, a1, b1, c1, g1, e1e, v1, r2, a2, b2, c2, g2, e2e]

set_option autoImplicit true in
theorem c_contractTypeArgs (ih : Comp fu)
    (d1 : Derives (.star .typeArg) w1 args)
    (heq : w = ⟨s1, .openBrace, e1⟩ :: (w1 ++ [⟨s2, .closeBrace, e2⟩]))
    (hl : 32 * w.length + rank .contractTypeArgs ≤ fu + 1) (hF : Follow (bad .contractTypeArgs) rest) :
    pContractTypeArgs (parse fu) ⟨po, w ++ rest⟩ = some (((mkW w ⟨args⟩) : Val .contractTypeArgs), ⟨stopFrom po w, rest⟩) := by
  subst heq
  simp only [List.length_append, List.length_cons, List.length_nil, rank] at hl
  have hA := fun p k hk => hF.at p k hk
  have hB := fun p M hM => hF.among (M := M) p hM
  have r1 : ∀ pp, parse fu (.star .typeArg) ⟨pp, w1 ++ (⟨s2, .closeBrace, e2⟩ :: (rest))⟩ = some (args, ⟨stopFrom pp w1, ⟨s2, .closeBrace, e2⟩ :: (rest)⟩) :=
    fun p => ih _ _ _ d1 rfl (by simp only [rank]; omega) p _ (.tok (by decide))
  simp (decide := true) [pContractTypeArgs, expect_cons, PS.wrap, mkW, startOf_cons, stopOf, stopFrom, stopFrom_append, hA, hB, r1]

set_option autoImplicit true in
theorem c_exprLet (ih : Comp fu)
    (d1 : Derives .regularId w1 x)
    (d2 : Derives (.opt .typeAnn) w2 ta)
    (d3 : Derives .fullExpr w3 ex)
    (d4 : Derives .fullExpr w4 bdy)
    (heq : w = ⟨s1, .let_, e1⟩ :: (w1 ++ (w2 ++ ⟨s2, .equals, e2⟩ :: (w3 ++ ⟨s3, .in_, e3⟩ :: w4))))
    (hl : 32 * w.length + rank .fullExpr ≤ fu + 1) (hF : Follow (bad .fullExpr) rest) :
    pFullExpr (parse fu) ⟨po, w ++ rest⟩ = some (((mkW w (.localVariableDeclaration x ex ta bdy)) : Val .fullExpr), ⟨stopFrom po w, rest⟩) := by
  have l1 := d1.length_pos rfl
  have l3 := d3.length_pos rfl
  have l4 := d4.length_pos rfl
  subst heq
  simp only [List.length_append, List.length_cons, List.length_nil, rank] at hl
  have hA := fun p k hk => hF.at p k hk
  have hB := fun p M hM => hF.among (M := M) p hM
  have r1 : ∀ pp, parse fu .regularId ⟨pp, w1 ++ (w2 ++ (⟨s2, .equals, e2⟩ :: (w3 ++ (⟨s3, .in_, e3⟩ :: (w4 ++ (rest))))))⟩ = some (x, ⟨stopFrom pp w1, w2 ++ (⟨s2, .equals, e2⟩ :: (w3 ++ (⟨s3, .in_, e3⟩ :: (w4 ++ (rest)))))⟩) :=
    fun p => ih _ _ _ d1 rfl (by simp only [rank]; omega) p _ (.app' d2 (by decide) (.tok (by decide)))
  have a1 := fun p k hk => d1.at0 (K := w2 ++ (⟨s2, .equals, e2⟩ :: (w3 ++ (⟨s3, .in_, e3⟩ :: (w4 ++ (rest)))))) rfl p k hk
  have b1 := fun p L hk => d1.among0 (K := w2 ++ (⟨s2, .equals, e2⟩ :: (w3 ++ (⟨s3, .in_, e3⟩ :: (w4 ++ (rest)))))) rfl p L hk
  have c1 := fun p L hk => d1.among0_false (K := w2 ++ (⟨s2, .equals, e2⟩ :: (w3 ++ (⟨s3, .in_, e3⟩ :: (w4 ++ (rest)))))) rfl p L hk
  have g1 := fun K => d1.startOf_app (K := K) rfl
  have e1e := fun p => d1.stop_eq rfl p
  have s1_1 : ∀ p k, (PS.mk p (w1 ++ (w2 ++ (⟨s2, .equals, e2⟩ :: (w3 ++ (⟨s3, .in_, e3⟩ :: (w4 ++ (rest)))))))).at? 1 k = (PS.mk p (w2 ++ (⟨s2, .equals, e2⟩ :: (w3 ++ (⟨s3, .in_, e3⟩ :: (w4 ++ (rest))))))).at? 0 k := fun p k => d1.single_at (K := w2 ++ (⟨s2, .equals, e2⟩ :: (w3 ++ (⟨s3, .in_, e3⟩ :: (w4 ++ (rest)))))) rfl p 0 k
  have t1_1 : ∀ p k, (PS.mk p (w1 ++ (w2 ++ (⟨s2, .equals, e2⟩ :: (w3 ++ (⟨s3, .in_, e3⟩ :: (w4 ++ (rest)))))))).among 1 k = (PS.mk p (w2 ++ (⟨s2, .equals, e2⟩ :: (w3 ++ (⟨s3, .in_, e3⟩ :: (w4 ++ (rest))))))).among 0 k := fun p k => d1.single_among (K := w2 ++ (⟨s2, .equals, e2⟩ :: (w3 ++ (⟨s3, .in_, e3⟩ :: (w4 ++ (rest)))))) rfl p 0 k
  have s1_2 : ∀ p k, (PS.mk p (w1 ++ (w2 ++ (⟨s2, .equals, e2⟩ :: (w3 ++ (⟨s3, .in_, e3⟩ :: (w4 ++ (rest)))))))).at? 2 k = (PS.mk p (w2 ++ (⟨s2, .equals, e2⟩ :: (w3 ++ (⟨s3, .in_, e3⟩ :: (w4 ++ (rest))))))).at? 1 k := fun p k => d1.single_at (K := w2 ++ (⟨s2, .equals, e2⟩ :: (w3 ++ (⟨s3, .in_, e3⟩ :: (w4 ++ (rest)))))) rfl p 1 k
  have t1_2 : ∀ p k, (PS.mk p (w1 ++ (w2 ++ (⟨s2, .equals, e2⟩ :: (w3 ++ (⟨s3, .in_, e3⟩ :: (w4 ++ (rest)))))))).among 2 k = (PS.mk p (w2 ++ (⟨s2, .equals, e2⟩ :: (w3 ++ (⟨s3, .in_, e3⟩ :: (w4 ++ (rest))))))).among 1 k := fun p k => d1.single_among (K := w2 ++ (⟨s2, .equals, e2⟩ :: (w3 ++ (⟨s3, .in_, e3⟩ :: (w4 ++ (rest)))))) rfl p 1 k
  have s1_3 : ∀ p k, (PS.mk p (w1 ++ (w2 ++ (⟨s2, .equals, e2⟩ :: (w3 ++ (⟨s3, .in_, e3⟩ :: (w4 ++ (rest)))))))).at? 3 k = (PS.mk p (w2 ++ (⟨s2, .equals, e2⟩ :: (w3 ++ (⟨s3, .in_, e3⟩ :: (w4 ++ (rest))))))).at? 2 k := fun p k => d1.single_at (K := w2 ++ (⟨s2, .equals, e2⟩ :: (w3 ++ (⟨s3, .in_, e3⟩ :: (w4 ++ (rest)))))) rfl p 2 k
  have t1_3 : ∀ p k, (PS.mk p (w1 ++ (w2 ++ (⟨s2, .equals, e2⟩ :: (w3 ++ (⟨s3, .in_, e3⟩ :: (w4 ++ (rest)))))))).among 3 k = (PS.mk p (w2 ++ (⟨s2, .equals, e2⟩ :: (w3 ++ (⟨s3, .in_, e3⟩ :: (w4 ++ (rest))))))).among 2 k := fun p k => d1.single_among (K := w2 ++ (⟨s2, .equals, e2⟩ :: (w3 ++ (⟨s3, .in_, e3⟩ :: (w4 ++ (rest)))))) rfl p 2 k
  have s1_4 : ∀ p k, (PS.mk p (w1 ++ (w2 ++ (⟨s2, .equals, e2⟩ :: (w3 ++ (⟨s3, .in_, e3⟩ :: (w4 ++ (rest)))))))).at? 4 k = (PS.mk p (w2 ++ (⟨s2, .equals, e2⟩ :: (w3 ++ (⟨s3, .in_, e3⟩ :: (w4 ++ (rest))))))).at? 3 k := fun p k => d1.single_at (K := w2 ++ (⟨s2, .equals, e2⟩ :: (w3 ++ (⟨s3, .in_, e3⟩ :: (w4 ++ (rest)))))) rfl p 3 k
  have t1_4 : ∀ p k, (PS.mk p (w1 ++ (w2 ++ (⟨s2, .equals, e2⟩ :: (w3 ++ (⟨s3, .in_, e3⟩ :: (w4 ++ (rest)))))))).among 4 k = (PS.mk p (w2 ++ (⟨s2, .equals, e2⟩ :: (w3 ++ (⟨s3, .in_, e3⟩ :: (w4 ++ (rest))))))).among 3 k := fun p k => d1.single_among (K := w2 ++ (⟨s2, .equals, e2⟩ :: (w3 ++ (⟨s3, .in_, e3⟩ :: (w4 ++ (rest)))))) rfl p 3 k
  have u1 := fun p => d1.at0_true (K := w2 ++ (⟨s2, .equals, e2⟩ :: (w3 ++ (⟨s3, .in_, e3⟩ :: (w4 ++ (rest)))))) (k := .identifier []) rfl rfl p
  have r2 : ∀ pp, parse fu (.opt .typeAnn) ⟨pp, w2 ++ (⟨s2, .equals, e2⟩ :: (w3 ++ (⟨s3, .in_, e3⟩ :: (w4 ++ (rest)))))⟩ = some (ta, ⟨stopFrom pp w2, ⟨s2, .equals, e2⟩ :: (w3 ++ (⟨s3, .in_, e3⟩ :: (w4 ++ (rest))))⟩) :=
    fun p => ih _ _ _ d2 rfl (by simp only [rank]; omega) p _ (.tok (by decide))
  have r3 : ∀ pp, parse fu .fullExpr ⟨pp, w3 ++ (⟨s3, .in_, e3⟩ :: (w4 ++ (rest)))⟩ = some (ex, ⟨stopFrom pp w3, ⟨s3, .in_, e3⟩ :: (w4 ++ (rest))⟩) :=
    fun p => ih _ _ _ d3 rfl (by simp only [rank]; omega) p _ (.tok (by decide))
  have a3 := fun p k hk => d3.at0 (K := ⟨s3, .in_, e3⟩ :: (w4 ++ (rest))) rfl p k hk
  have b3 := fun p L hk => d3.among0 (K := ⟨s3, .in_, e3⟩ :: (w4 ++ (rest))) rfl p L hk
  have c3 := fun p L hk => d3.among0_false (K := ⟨s3, .in_, e3⟩ :: (w4 ++ (rest))) rfl p L hk
  have g3 := fun K => d3.startOf_app (K := K) rfl
  have e3e := fun p => d3.stop_eq rfl p
  have r4 : ∀ pp, parse fu .fullExpr ⟨pp, w4 ++ (rest)⟩ = some (bdy, ⟨stopFrom pp w4, rest⟩) :=
    fun p => ih _ _ _ d4 rfl (by simp only [rank]; omega) p _ (hF.mono (by decide))
  have a4 := fun p k hk => d4.at0 (K := rest) rfl p k hk
  have b4 := fun p L hk => d4.among0 (K := rest) rfl p L hk
  have c4 := fun p L hk => d4.among0_false (K := rest) rfl p L hk
  have g4 := fun K => d4.startOf_app (K := K) rfl
  have e4e := fun p => d4.stop_eq rfl p
  simp (decide := true) [pFullExpr, expect_cons, PS.wrap, mkW, startOf_cons, stopOf, stopFrom, stopFrom_append, hA, hB, r1, a1, b1, c1, g1, e1e, s1_1, t1_1, s1_2, t1_2, s1_3, t1_3, s1_4, t1_4, u1, r2, r3, a3, b3, c3, g3, e3e, r4, a4, b4, c4, g4, e4e]

set_option autoImplicit true in
theorem c_exprFun (ih : Comp fu)
    (d1 : Derives .regularId w1 x)
    (d2 : Derives .typeAnn w2 ta)
    (d3 : Derives .fullExpr w3 ex)
    (heq : w = ⟨s1, .fun_, e1⟩ :: ⟨s2, .openParen, e2⟩ :: (w1 ++ (w2 ++ ⟨s3, .closeParen, e3⟩ :: ⟨s4, .doubleArrow, e4⟩ :: w3)))
    (hl : 32 * w.length + rank .fullExpr ≤ fu + 1) (hF : Follow (bad .fullExpr) rest) :
    pFullExpr (parse fu) ⟨po, w ++ rest⟩ = some (((mkW w (.functionDeclaration x ta ex)) : Val .fullExpr), ⟨stopFrom po w, rest⟩) := by
  have l1 := d1.length_pos rfl
  have l2 := d2.length_pos rfl
  have l3 := d3.length_pos rfl
  subst heq
  simp only [List.length_append, List.length_cons, List.length_nil, rank] at hl
  have hA := fun p k hk => hF.at p k hk
  have hB := fun p M hM => hF.among (M := M) p hM
  have r1 : ∀ pp, parse fu .regularId ⟨pp, w1 ++ (w2 ++ (⟨s3, .closeParen, e3⟩ :: (⟨s4, .doubleArrow, e4⟩ :: (w3 ++ (rest)))))⟩ = some (x, ⟨stopFrom pp w1, w2 ++ (⟨s3, .closeParen, e3⟩ :: (⟨s4, .doubleArrow, e4⟩ :: (w3 ++ (rest))))⟩) :=
    fun p => ih _ _ _ d1 rfl (by simp only [rank]; omega) p _ (.app d2 (by decide) rfl)
  have a1 := fun p k hk => d1.at0 (K := w2 ++ (⟨s3, .closeParen, e3⟩ :: (⟨s4, .doubleArrow, e4⟩ :: (w3 ++ (rest))))) rfl p k hk
  have b1 := fun p L hk => d1.among0 (K := w2 ++ (⟨s3, .closeParen, e3⟩ :: (⟨s4, .doubleArrow, e4⟩ :: (w3 ++ (rest))))) rfl p L hk
  have c1 := fun p L hk => d1.among0_false (K := w2 ++ (⟨s3, .closeParen, e3⟩ :: (⟨s4, .doubleArrow, e4⟩ :: (w3 ++ (rest))))) rfl p L hk
  have g1 := fun K => d1.startOf_app (K := K) rfl
  have e1e := fun p => d1.stop_eq rfl p
  have s1_1 : ∀ p k, (PS.mk p (w1 ++ (w2 ++ (⟨s3, .closeParen, e3⟩ :: (⟨s4, .doubleArrow, e4⟩ :: (w3 ++ (rest))))))).at? 1 k = (PS.mk p (w2 ++ (⟨s3, .closeParen, e3⟩ :: (⟨s4, .doubleArrow, e4⟩ :: (w3 ++ (rest)))))).at? 0 k := fun p k => d1.single_at (K := w2 ++ (⟨s3, .closeParen, e3⟩ :: (⟨s4, .doubleArrow, e4⟩ :: (w3 ++ (rest))))) rfl p 0 k
  have t1_1 : ∀ p k, (PS.mk p (w1 ++ (w2 ++ (⟨s3, .closeParen, e3⟩ :: (⟨s4, .doubleArrow, e4⟩ :: (w3 ++ (rest))))))).among 1 k = (PS.mk p (w2 ++ (⟨s3, .closeParen, e3⟩ :: (⟨s4, .doubleArrow, e4⟩ :: (w3 ++ (rest)))))).among 0 k := fun p k => d1.single_among (K := w2 ++ (⟨s3, .closeParen, e3⟩ :: (⟨s4, .doubleArrow, e4⟩ :: (w3 ++ (rest))))) rfl p 0 k
  have s1_2 : ∀ p k, (PS.mk p (w1 ++ (w2 ++ (⟨s3, .closeParen, e3⟩ :: (⟨s4, .doubleArrow, e4⟩ :: (w3 ++ (rest))))))).at? 2 k = (PS.mk p (w2 ++ (⟨s3, .closeParen, e3⟩ :: (⟨s4, .doubleArrow, e4⟩ :: (w3 ++ (rest)))))).at? 1 k := fun p k => d1.single_at (K := w2 ++ (⟨s3, .closeParen, e3⟩ :: (⟨s4, .doubleArrow, e4⟩ :: (w3 ++ (rest))))) rfl p 1 k
  have t1_2 : ∀ p k, (PS.mk p (w1 ++ (w2 ++ (⟨s3, .closeParen, e3⟩ :: (⟨s4, .doubleArrow, e4⟩ :: (w3 ++ (rest))))))).among 2 k = (PS.mk p (w2 ++ (⟨s3, .closeParen, e3⟩ :: (⟨s4, .doubleArrow, e4⟩ :: (w3 ++ (rest)))))).among 1 k := fun p k => d1.single_among (K := w2 ++ (⟨s3, .closeParen, e3⟩ :: (⟨s4, .doubleArrow, e4⟩ :: (w3 ++ (rest))))) rfl p 1 k
  have s1_3 : ∀ p k, (PS.mk p (w1 ++ (w2 ++ (⟨s3, .closeParen, e3⟩ :: (⟨s4, .doubleArrow, e4⟩ :: (w3 ++ (rest))))))).at? 3 k = (PS.mk p (w2 ++ (⟨s3, .closeParen, e3⟩ :: (⟨s4, .doubleArrow, e4⟩ :: (w3 ++ (rest)))))).at? 2 k := fun p k => d1.single_at (K := w2 ++ (⟨s3, .closeParen, e3⟩ :: (⟨s4, .doubleArrow, e4⟩ :: (w3 ++ (rest))))) rfl p 2 k
  have t1_3 : ∀ p k, (PS.mk p (w1 ++ (w2 ++ (⟨s3, .closeParen, e3⟩ :: (⟨s4, .doubleArrow, e4⟩ :: (w3 ++ (rest))))))).among 3 k = (PS.mk p (w2 ++ (⟨s3, .closeParen, e3⟩ :: (⟨s4, .doubleArrow, e4⟩ :: (w3 ++ (rest)))))).among 2 k := fun p k => d1.single_among (K := w2 ++ (⟨s3, .closeParen, e3⟩ :: (⟨s4, .doubleArrow, e4⟩ :: (w3 ++ (rest))))) rfl p 2 k
  have s1_4 : ∀ p k, (PS.mk p (w1 ++ (w2 ++ (⟨s3, .closeParen, e3⟩ :: (⟨s4, .doubleArrow, e4⟩ :: (w3 ++ (rest))))))).at? 4 k = (PS.mk p (w2 ++ (⟨s3, .closeParen, e3⟩ :: (⟨s4, .doubleArrow, e4⟩ :: (w3 ++ (rest)))))).at? 3 k := fun p k => d1.single_at (K := w2 ++ (⟨s3, .closeParen, e3⟩ :: (⟨s4, .doubleArrow, e4⟩ :: (w3 ++ (rest))))) rfl p 3 k
  have t1_4 : ∀ p k, (PS.mk p (w1 ++ (w2 ++ (⟨s3, .closeParen, e3⟩ :: (⟨s4, .doubleArrow, e4⟩ :: (w3 ++ (rest))))))).among 4 k = (PS.mk p (w2 ++ (⟨s3, .closeParen, e3⟩ :: (⟨s4, .doubleArrow, e4⟩ :: (w3 ++ (rest)))))).among 3 k := fun p k => d1.single_among (K := w2 ++ (⟨s3, .closeParen, e3⟩ :: (⟨s4, .doubleArrow, e4⟩ :: (w3 ++ (rest))))) rfl p 3 k
  have u1 := fun p => d1.at0_true (K := w2 ++ (⟨s3, .closeParen, e3⟩ :: (⟨s4, .doubleArrow, e4⟩ :: (w3 ++ (rest))))) (k := .identifier []) rfl rfl p
  have r2 : ∀ pp, parse fu .typeAnn ⟨pp, w2 ++ (⟨s3, .closeParen, e3⟩ :: (⟨s4, .doubleArrow, e4⟩ :: (w3 ++ (rest))))⟩ = some (ta, ⟨stopFrom pp w2, ⟨s3, .closeParen, e3⟩ :: (⟨s4, .doubleArrow, e4⟩ :: (w3 ++ (rest)))⟩) :=
    fun p => ih _ _ _ d2 rfl (by simp only [rank]; omega) p _ (.tok (by decide))
  have a2 := fun p k hk => d2.at0 (K := ⟨s3, .closeParen, e3⟩ :: (⟨s4, .doubleArrow, e4⟩ :: (w3 ++ (rest)))) rfl p k hk
  have b2 := fun p L hk => d2.among0 (K := ⟨s3, .closeParen, e3⟩ :: (⟨s4, .doubleArrow, e4⟩ :: (w3 ++ (rest)))) rfl p L hk
  have c2 := fun p L hk => d2.among0_false (K := ⟨s3, .closeParen, e3⟩ :: (⟨s4, .doubleArrow, e4⟩ :: (w3 ++ (rest)))) rfl p L hk
  have g2 := fun K => d2.startOf_app (K := K) rfl
  have e2e := fun p => d2.stop_eq rfl p
  have r3 : ∀ pp, parse fu .fullExpr ⟨pp, w3 ++ (rest)⟩ = some (ex, ⟨stopFrom pp w3, rest⟩) :=
    fun p => ih _ _ _ d3 rfl (by simp only [rank]; omega) p _ (hF.mono (by decide))
  have a3 := fun p k hk => d3.at0 (K := rest) rfl p k hk
  have b3 := fun p L hk => d3.among0 (K := rest) rfl p L hk
  have c3 := fun p L hk => d3.among0_false (K := rest) rfl p L hk
  have g3 := fun K => d3.startOf_app (K := K) rfl
  have e3e := fun p => d3.stop_eq rfl p
  simp (decide := true) [pFullExpr, expect_cons, PS.wrap, mkW, startOf_cons, stopOf, stopFrom, stopFrom_append, hA, hB, r1, a1, b1, c1, g1, e1e, s1_1, t1_1, s1_2, t1_2, s1_3, t1_3, s1_4, t1_4, u1, r2, a2, b2, c2, g2, e2e, r3, a3, b3, c3, g3, e3e]

set_option autoImplicit true in
theorem c_exprCall (ih : Comp fu)
    (d1 : Derives .varId w1 f)
    (d2 : Derives (.plus .varId) w2 args)
    (heq : w = w1 ++ w2)
    (hl : 32 * w.length + rank .fullExpr ≤ fu + 1) (hF : Follow (bad .fullExpr) rest) :
    pFullExpr (parse fu) ⟨po, w ++ rest⟩ = some (((mkW w (.functionCall f args)) : Val .fullExpr), ⟨stopFrom po w, rest⟩) := by
  have l1 := d1.length_pos rfl
  have l2 := d2.length_pos rfl
  subst heq
  simp only [List.length_append, List.length_cons, List.length_nil, rank] at hl
  have hA := fun p k hk => hF.at p k hk
  have hB := fun p M hM => hF.among (M := M) p hM
  have r1 : ∀ pp, parse fu .varId ⟨pp, w1 ++ (w2 ++ (rest))⟩ = some (f, ⟨stopFrom pp w1, w2 ++ (rest)⟩) :=
    fun p => ih _ _ _ d1 rfl (by simp only [rank]; omega) p _ (.app d2 (by decide) rfl)
  have a1 := fun p k hk => d1.at0 (K := w2 ++ (rest)) rfl p k hk
  have b1 := fun p L hk => d1.among0 (K := w2 ++ (rest)) rfl p L hk
  have c1 := fun p L hk => d1.among0_false (K := w2 ++ (rest)) rfl p L hk
  have g1 := fun K => d1.startOf_app (K := K) rfl
  have e1e := fun p => d1.stop_eq rfl p
  have v1 := fun p => isVar_varId (K := w2 ++ (rest)) d1 p
  have r2 : ∀ pp, parse fu (.plus .varId) ⟨pp, w2 ++ (rest)⟩ = some (args, ⟨stopFrom pp w2, rest⟩) :=
    fun p => ih _ _ _ d2 rfl (by simp only [rank]; omega) p _ (hF.mono (by decide))
  have a2 := fun p k hk => d2.at0 (K := rest) rfl p k hk
  have b2 := fun p L hk => d2.among0 (K := rest) rfl p L hk
  have c2 := fun p L hk => d2.among0_false (K := rest) rfl p L hk
  have g2 := fun K => d2.startOf_app (K := K) rfl
  have e2e := fun p => d2.stop_eq rfl p
  simp (decide := true) [pFullExpr, expect_cons, PS.wrap, mkW, startOf_cons, stopOf, stopFrom, stopFrom_append, hA, hB, r1, a1, b1, c1, g1, e1e, v1, r2, a2, b2, c2, g2, e2e]

set_option autoImplicit true in
theorem c_exprBuiltin (ih : Comp fu)
    (d1 : Derives .regularId w1 b)
    (d2 : Derives (.opt .contractTypeArgs) w2 targs)
    (d3 : Derives .builtinArgs w3 xs)
    (heq : w = ⟨s1, .builtin, e1⟩ :: (w1 ++ (w2 ++ w3)))
    (hl : 32 * w.length + rank .fullExpr ≤ fu + 1) (hF : Follow (bad .fullExpr) rest) :
    pFullExpr (parse fu) ⟨po, w ++ rest⟩ = some (((mkW w (.expressionBuiltin b targs xs)) : Val .fullExpr), ⟨stopFrom po w, rest⟩) := by
  have l1 := d1.length_pos rfl
  have l3 := d3.length_pos rfl
  subst heq
  simp only [List.length_append, List.length_cons, List.length_nil, rank] at hl
  have hA := fun p k hk => hF.at p k hk
  have hB := fun p M hM => hF.among (M := M) p hM
  have r1 : ∀ pp, parse fu .regularId ⟨pp, w1 ++ (w2 ++ (w3 ++ (rest)))⟩ = some (b, ⟨stopFrom pp w1, w2 ++ (w3 ++ (rest))⟩) :=
    fun p => ih _ _ _ d1 rfl (by simp only [rank]; omega) p _ (.app' d2 (by decide) (.app d3 (by decide) rfl))
  have a1 := fun p k hk => d1.at0 (K := w2 ++ (w3 ++ (rest))) rfl p k hk
  have b1 := fun p L hk => d1.among0 (K := w2 ++ (w3 ++ (rest))) rfl p L hk
  have c1 := fun p L hk => d1.among0_false (K := w2 ++ (w3 ++ (rest))) rfl p L hk
  have g1 := fun K => d1.startOf_app (K := K) rfl
  have e1e := fun p => d1.stop_eq rfl p
  have s1_1 : ∀ p k, (PS.mk p (w1 ++ (w2 ++ (w3 ++ (rest))))).at? 1 k = (PS.mk p (w2 ++ (w3 ++ (rest)))).at? 0 k := fun p k => d1.single_at (K := w2 ++ (w3 ++ (rest))) rfl p 0 k
  have t1_1 : ∀ p k, (PS.mk p (w1 ++ (w2 ++ (w3 ++ (rest))))).among 1 k = (PS.mk p (w2 ++ (w3 ++ (rest)))).among 0 k := fun p k => d1.single_among (K := w2 ++ (w3 ++ (rest))) rfl p 0 k
  have s1_2 : ∀ p k, (PS.mk p (w1 ++ (w2 ++ (w3 ++ (rest))))).at? 2 k = (PS.mk p (w2 ++ (w3 ++ (rest)))).at? 1 k := fun p k => d1.single_at (K := w2 ++ (w3 ++ (rest))) rfl p 1 k
  have t1_2 : ∀ p k, (PS.mk p (w1 ++ (w2 ++ (w3 ++ (rest))))).among 2 k = (PS.mk p (w2 ++ (w3 ++ (rest)))).among 1 k := fun p k => d1.single_among (K := w2 ++ (w3 ++ (rest))) rfl p 1 k
  have s1_3 : ∀ p k, (PS.mk p (w1 ++ (w2 ++ (w3 ++ (rest))))).at? 3 k = (PS.mk p (w2 ++ (w3 ++ (rest)))).at? 2 k := fun p k => d1.single_at (K := w2 ++ (w3 ++ (rest))) rfl p 2 k
  have t1_3 : ∀ p k, (PS.mk p (w1 ++ (w2 ++ (w3 ++ (rest))))).among 3 k = (PS.mk p (w2 ++ (w3 ++ (rest)))).among 2 k := fun p k => d1.single_among (K := w2 ++ (w3 ++ (rest))) rfl p 2 k
  have s1_4 : ∀ p k, (PS.mk p (w1 ++ (w2 ++ (w3 ++ (rest))))).at? 4 k = (PS.mk p (w2 ++ (w3 ++ (rest)))).at? 3 k := fun p k => d1.single_at (K := w2 ++ (w3 ++ (rest))) rfl p 3 k
  have t1_4 : ∀ p k, (PS.mk p (w1 ++ (w2 ++ (w3 ++ (rest))))).among 4 k = (PS.mk p (w2 ++ (w3 ++ (rest)))).among 3 k := fun p k => d1.single_among (K := w2 ++ (w3 ++ (rest))) rfl p 3 k
  have u1 := fun p => d1.at0_true (K := w2 ++ (w3 ++ (rest))) (k := .identifier []) rfl rfl p
  have r2 : ∀ pp, parse fu (.opt .contractTypeArgs) ⟨pp, w2 ++ (w3 ++ (rest))⟩ = some (targs, ⟨stopFrom pp w2, w3 ++ (rest)⟩) :=
    fun p => ih _ _ _ d2 rfl (by simp only [rank]; omega) p _ (.app d3 (by decide) rfl)
  have r3 : ∀ pp, parse fu .builtinArgs ⟨pp, w3 ++ (rest)⟩ = some (xs, ⟨stopFrom pp w3, rest⟩) :=
    fun p => ih _ _ _ d3 rfl (by simp only [rank]; omega) p _ (hF.mono (by decide))
  have a3 := fun p k hk => d3.at0 (K := rest) rfl p k hk
  have b3 := fun p L hk => d3.among0 (K := rest) rfl p L hk
  have c3 := fun p L hk => d3.among0_false (K := rest) rfl p L hk
  have g3 := fun K => d3.startOf_app (K := K) rfl
  have e3e := fun p => d3.stop_eq rfl p
  simp (decide := true) [pFullExpr, expect_cons, PS.wrap, mkW, startOf_cons, stopOf, stopFrom, stopFrom_append, hA, hB, r1, a1, b1, c1, g1, e1e, s1_1, t1_1, s1_2, t1_2, s1_3, t1_3, s1_4, t1_4, u1, r2, r3, a3, b3, c3, g3, e3e]

set_option autoImplicit true in
theorem c_exprMessage (ih : Comp fu)
    (d1 : Derives .messageEntry w1 m)
    (d2 : Derives (.star .nextMessage) w2 ms)
    (heq : w = ⟨s1, .openBrace, e1⟩ :: (w1 ++ (w2 ++ [⟨s2, .closeBrace, e2⟩])))
    (hl : 32 * w.length + rank .fullExpr ≤ fu + 1) (hF : Follow (bad .fullExpr) rest) :
    pFullExpr (parse fu) ⟨po, w ++ rest⟩ = some (((mkW w (.message (m :: ms))) : Val .fullExpr), ⟨stopFrom po w, rest⟩) := by
  have l1 := d1.length_pos rfl
  subst heq
  simp only [List.length_append, List.length_cons, List.length_nil, rank] at hl
  have hA := fun p k hk => hF.at p k hk
  have hB := fun p M hM => hF.among (M := M) p hM
  have r1 : ∀ pp, parse fu .messageEntry ⟨pp, w1 ++ (w2 ++ (⟨s2, .closeBrace, e2⟩ :: (rest)))⟩ = some (m, ⟨stopFrom pp w1, w2 ++ (⟨s2, .closeBrace, e2⟩ :: (rest))⟩) :=
    fun p => ih _ _ _ d1 rfl (by simp only [rank]; omega) p _ (.app' d2 (by decide) (.tok (by decide)))
  have a1 := fun p k hk => d1.at0 (K := w2 ++ (⟨s2, .closeBrace, e2⟩ :: (rest))) rfl p k hk
  have b1 := fun p L hk => d1.among0 (K := w2 ++ (⟨s2, .closeBrace, e2⟩ :: (rest))) rfl p L hk
  have c1 := fun p L hk => d1.among0_false (K := w2 ++ (⟨s2, .closeBrace, e2⟩ :: (rest))) rfl p L hk
  have g1 := fun K => d1.startOf_app (K := K) rfl
  have e1e := fun p => d1.stop_eq rfl p
  have r2 : ∀ pp, parse fu (.star .nextMessage) ⟨pp, w2 ++ (⟨s2, .closeBrace, e2⟩ :: (rest))⟩ = some (ms, ⟨stopFrom pp w2, ⟨s2, .closeBrace, e2⟩ :: (rest)⟩) :=
    fun p => ih _ _ _ d2 rfl (by simp only [rank]; omega) p _ (.tok (by decide))
  simp (decide := true) [pFullExpr, expect_cons, PS.wrap, mkW, startOf_cons, stopOf, stopFrom, stopFrom_append, hA, hB, r1, a1, b1, c1, g1, e1e, r2]

set_option autoImplicit true in
theorem c_exprMatch (ih : Comp fu)
    (d1 : Derives .varId w1 x)
    (d2 : Derives (.plus .pmExprClause) w2 cs)
    (heq : w = ⟨s1, .match_, e1⟩ :: (w1 ++ ⟨s2, .with_, e2⟩ :: (w2 ++ [⟨s3, .end_, e3⟩])))
    (hl : 32 * w.length + rank .fullExpr ≤ fu + 1) (hF : Follow (bad .fullExpr) rest) :
    pFullExpr (parse fu) ⟨po, w ++ rest⟩ = some (((mkW w (.match_ x cs)) : Val .fullExpr), ⟨stopFrom po w, rest⟩) := by
  have l1 := d1.length_pos rfl
  have l2 := d2.length_pos rfl
  subst heq
  simp only [List.length_append, List.length_cons, List.length_nil, rank] at hl
  have hA := fun p k hk => hF.at p k hk
  have hB := fun p M hM => hF.among (M := M) p hM
  have r1 : ∀ pp, parse fu .varId ⟨pp, w1 ++ (⟨s2, .with_, e2⟩ :: (w2 ++ (⟨s3, .end_, e3⟩ :: (rest))))⟩ = some (x, ⟨stopFrom pp w1, ⟨s2, .with_, e2⟩ :: (w2 ++ (⟨s3, .end_, e3⟩ :: (rest)))⟩) :=
    fun p => ih _ _ _ d1 rfl (by simp only [rank]; omega) p _ (.tok (by decide))
  have a1 := fun p k hk => d1.at0 (K := ⟨s2, .with_, e2⟩ :: (w2 ++ (⟨s3, .end_, e3⟩ :: (rest)))) rfl p k hk
  have b1 := fun p L hk => d1.among0 (K := ⟨s2, .with_, e2⟩ :: (w2 ++ (⟨s3, .end_, e3⟩ :: (rest)))) rfl p L hk
  have c1 := fun p L hk => d1.among0_false (K := ⟨s2, .with_, e2⟩ :: (w2 ++ (⟨s3, .end_, e3⟩ :: (rest)))) rfl p L hk
  have g1 := fun K => d1.startOf_app (K := K) rfl
  have e1e := fun p => d1.stop_eq rfl p
  have v1 := fun p => isVar_varId (K := ⟨s2, .with_, e2⟩ :: (w2 ++ (⟨s3, .end_, e3⟩ :: (rest)))) d1 p
  have r2 : ∀ pp, parse fu (.plus .pmExprClause) ⟨pp, w2 ++ (⟨s3, .end_, e3⟩ :: (rest))⟩ = some (cs, ⟨stopFrom pp w2, ⟨s3, .end_, e3⟩ :: (rest)⟩) :=
    fun p => ih _ _ _ d2 rfl (by simp only [rank]; omega) p _ (.tok (by decide))
  have a2 := fun p k hk => d2.at0 (K := ⟨s3, .end_, e3⟩ :: (rest)) rfl p k hk
  have b2 := fun p L hk => d2.among0 (K := ⟨s3, .end_, e3⟩ :: (rest)) rfl p L hk
  have c2 := fun p L hk => d2.among0_false (K := ⟨s3, .end_, e3⟩ :: (rest)) rfl p L hk
  have g2 := fun K => d2.startOf_app (K := K) rfl
  have e2e := fun p => d2.stop_eq rfl p
  simp (decide := true) [pFullExpr, expect_cons, PS.wrap, mkW, startOf_cons, stopOf, stopFrom, stopFrom_append, hA, hB, r1, a1, b1, c1, g1, e1e, v1, r2, a2, b2, c2, g2, e2e]

set_option autoImplicit true in
theorem c_exprConstr (ih : Comp fu)
    (d1 : Derives .metaId w1 m)
    (d2 : Derives (.opt .contractTypeArgs) w2 targs)
    (d3 : Derives (.star .varId) w3 args)
    (heq : w = w1 ++ (w2 ++ w3))
    (hl : 32 * w.length + rank .fullExpr ≤ fu + 1) (hF : Follow (bad .fullExpr) rest) :
    pFullExpr (parse fu) ⟨po, w ++ rest⟩ = some (((mkW w (.constructorCall m targs args)) : Val .fullExpr), ⟨stopFrom po w, rest⟩) := by
  have l1 := d1.length_pos rfl
  subst heq
  simp only [List.length_append, List.length_cons, List.length_nil, rank] at hl
  have hA := fun p k hk => hF.at p k hk
  have hB := fun p M hM => hF.among (M := M) p hM
  have r1 : ∀ pp, parse fu .metaId ⟨pp, w1 ++ (w2 ++ (w3 ++ (rest)))⟩ = some (m, ⟨stopFrom pp w1, w2 ++ (w3 ++ (rest))⟩) :=
    fun p => ih _ _ _ d1 rfl (by simp only [rank]; omega) p _ (.app' d2 (by decide) (.app' d3 (by decide) (hF.mono (by decide))))
  have a1 := fun p k hk => d1.at0 (K := w2 ++ (w3 ++ (rest))) rfl p k hk
  have b1 := fun p L hk => d1.among0 (K := w2 ++ (w3 ++ (rest))) rfl p L hk
  have c1 := fun p L hk => d1.among0_false (K := w2 ++ (w3 ++ (rest))) rfl p L hk
  have g1 := fun K => d1.startOf_app (K := K) rfl
  have e1e := fun p => d1.stop_eq rfl p
  have v1 := fun p => isVar_metaId (K := w2 ++ (w3 ++ (rest))) d1 p (.app' d2 (by decide) (.app' d3 (by decide) (hF.mono (by decide))))
  have z1 := fun p => isLit_metaId (K := w2 ++ (w3 ++ (rest))) d1 p (.app' d2 (by decide) (.app' d3 (by decide) (hF.mono (by decide))))
  have r2 : ∀ pp, parse fu (.opt .contractTypeArgs) ⟨pp, w2 ++ (w3 ++ (rest))⟩ = some (targs, ⟨stopFrom pp w2, w3 ++ (rest)⟩) :=
    fun p => ih _ _ _ d2 rfl (by simp only [rank]; omega) p _ (.app' d3 (by decide) (hF.mono (by decide)))
  have r3 : ∀ pp, parse fu (.star .varId) ⟨pp, w3 ++ (rest)⟩ = some (args, ⟨stopFrom pp w3, rest⟩) :=
    fun p => ih _ _ _ d3 rfl (by simp only [rank]; omega) p _ (hF.mono (by decide))
  simp (decide := true) [pFullExpr, expect_cons, PS.wrap, mkW, startOf_cons, stopOf, stopFrom, stopFrom_append, hA, hB, r1, a1, b1, c1, g1, e1e, v1, z1, r2, r3]

set_option autoImplicit true in
theorem c_exprTFun (ih : Comp fu)
    (d1 : Derives .templateId w1 x)
    (d2 : Derives .fullExpr w2 ex)
    (heq : w = ⟨s1, .tfun, e1⟩ :: (w1 ++ ⟨s2, .doubleArrow, e2⟩ :: w2))
    (hl : 32 * w.length + rank .fullExpr ≤ fu + 1) (hF : Follow (bad .fullExpr) rest) :
    pFullExpr (parse fu) ⟨po, w ++ rest⟩ = some (((mkW w (.templateFunction x ex)) : Val .fullExpr), ⟨stopFrom po w, rest⟩) := by
  have l1 := d1.length_pos rfl
  have l2 := d2.length_pos rfl
  subst heq
  simp only [List.length_append, List.length_cons, List.length_nil, rank] at hl
  have hA := fun p k hk => hF.at p k hk
  have hB := fun p M hM => hF.among (M := M) p hM
  have r1 : ∀ pp, parse fu .templateId ⟨pp, w1 ++ (⟨s2, .doubleArrow, e2⟩ :: (w2 ++ (rest)))⟩ = some (x, ⟨stopFrom pp w1, ⟨s2, .doubleArrow, e2⟩ :: (w2 ++ (rest))⟩) :=
    fun p => ih _ _ _ d1 rfl (by simp only [rank]; omega) p _ (.tok (by decide))
  have a1 := fun p k hk => d1.at0 (K := ⟨s2, .doubleArrow, e2⟩ :: (w2 ++ (rest))) rfl p k hk
  have b1 := fun p L hk => d1.among0 (K := ⟨s2, .doubleArrow, e2⟩ :: (w2 ++ (rest))) rfl p L hk
  have c1 := fun p L hk => d1.among0_false (K := ⟨s2, .doubleArrow, e2⟩ :: (w2 ++ (rest))) rfl p L hk
  have g1 := fun K => d1.startOf_app (K := K) rfl
  have e1e := fun p => d1.stop_eq rfl p
  have s1_1 : ∀ p k, (PS.mk p (w1 ++ (⟨s2, .doubleArrow, e2⟩ :: (w2 ++ (rest))))).at? 1 k = (PS.mk p (⟨s2, .doubleArrow, e2⟩ :: (w2 ++ (rest)))).at? 0 k := fun p k => d1.single_at (K := ⟨s2, .doubleArrow, e2⟩ :: (w2 ++ (rest))) rfl p 0 k
  have t1_1 : ∀ p k, (PS.mk p (w1 ++ (⟨s2, .doubleArrow, e2⟩ :: (w2 ++ (rest))))).among 1 k = (PS.mk p (⟨s2, .doubleArrow, e2⟩ :: (w2 ++ (rest)))).among 0 k := fun p k => d1.single_among (K := ⟨s2, .doubleArrow, e2⟩ :: (w2 ++ (rest))) rfl p 0 k
  have s1_2 : ∀ p k, (PS.mk p (w1 ++ (⟨s2, .doubleArrow, e2⟩ :: (w2 ++ (rest))))).at? 2 k = (PS.mk p (⟨s2, .doubleArrow, e2⟩ :: (w2 ++ (rest)))).at? 1 k := fun p k => d1.single_at (K := ⟨s2, .doubleArrow, e2⟩ :: (w2 ++ (rest))) rfl p 1 k
  have t1_2 : ∀ p k, (PS.mk p (w1 ++ (⟨s2, .doubleArrow, e2⟩ :: (w2 ++ (rest))))).among 2 k = (PS.mk p (⟨s2, .doubleArrow, e2⟩ :: (w2 ++ (rest)))).among 1 k := fun p k => d1.single_among (K := ⟨s2, .doubleArrow, e2⟩ :: (w2 ++ (rest))) rfl p 1 k
  have s1_3 : ∀ p k, (PS.mk p (w1 ++ (⟨s2, .doubleArrow, e2⟩ :: (w2 ++ (rest))))).at? 3 k = (PS.mk p (⟨s2, .doubleArrow, e2⟩ :: (w2 ++ (rest)))).at? 2 k := fun p k => d1.single_at (K := ⟨s2, .doubleArrow, e2⟩ :: (w2 ++ (rest))) rfl p 2 k
  have t1_3 : ∀ p k, (PS.mk p (w1 ++ (⟨s2, .doubleArrow, e2⟩ :: (w2 ++ (rest))))).among 3 k = (PS.mk p (⟨s2, .doubleArrow, e2⟩ :: (w2 ++ (rest)))).among 2 k := fun p k => d1.single_among (K := ⟨s2, .doubleArrow, e2⟩ :: (w2 ++ (rest))) rfl p 2 k
  have s1_4 : ∀ p k, (PS.mk p (w1 ++ (⟨s2, .doubleArrow, e2⟩ :: (w2 ++ (rest))))).at? 4 k = (PS.mk p (⟨s2, .doubleArrow, e2⟩ :: (w2 ++ (rest)))).at? 3 k := fun p k => d1.single_at (K := ⟨s2, .doubleArrow, e2⟩ :: (w2 ++ (rest))) rfl p 3 k
  have t1_4 : ∀ p k, (PS.mk p (w1 ++ (⟨s2, .doubleArrow, e2⟩ :: (w2 ++ (rest))))).among 4 k = (PS.mk p (⟨s2, .doubleArrow, e2⟩ :: (w2 ++ (rest)))).among 3 k := fun p k => d1.single_among (K := ⟨s2, .doubleArrow, e2⟩ :: (w2 ++ (rest))) rfl p 3 k
  have u1 := fun p => d1.at0_true (K := ⟨s2, .doubleArrow, e2⟩ :: (w2 ++ (rest))) (k := .templateIdentifier []) rfl rfl p
  have r2 : ∀ pp, parse fu .fullExpr ⟨pp, w2 ++ (rest)⟩ = some (ex, ⟨stopFrom pp w2, rest⟩) :=
    fun p => ih _ _ _ d2 rfl (by simp only [rank]; omega) p _ (hF.mono (by decide))
  have a2 := fun p k hk => d2.at0 (K := rest) rfl p k hk
  have b2 := fun p L hk => d2.among0 (K := rest) rfl p L hk
  have c2 := fun p L hk => d2.among0_false (K := rest) rfl p L hk
  have g2 := fun K => d2.startOf_app (K := K) rfl
  have e2e := fun p => d2.stop_eq rfl p
  simp (decide := true) [pFullExpr, expect_cons, PS.wrap, mkW, startOf_cons, stopOf, stopFrom, stopFrom_append, hA, hB, r1, a1, b1, c1, g1, e1e, s1_1, t1_1, s1_2, t1_2, s1_3, t1_3, s1_4, t1_4, u1, r2, a2, b2, c2, g2, e2e]

set_option autoImplicit true in
theorem c_exprTApp (ih : Comp fu)
    (d1 : Derives .varId w1 x)
    (d2 : Derives (.plus .typeArg) w2 args)
    (heq : w = ⟨s1, .at_, e1⟩ :: (w1 ++ w2))
    (hl : 32 * w.length + rank .fullExpr ≤ fu + 1) (hF : Follow (bad .fullExpr) rest) :
    pFullExpr (parse fu) ⟨po, w ++ rest⟩ = some (((mkW w (.tApp x args)) : Val .fullExpr), ⟨stopFrom po w, rest⟩) := by
  have l1 := d1.length_pos rfl
  have l2 := d2.length_pos rfl
  subst heq
  simp only [List.length_append, List.length_cons, List.length_nil, rank] at hl
  have hA := fun p k hk => hF.at p k hk
  have hB := fun p M hM => hF.among (M := M) p hM
  have r1 : ∀ pp, parse fu .varId ⟨pp, w1 ++ (w2 ++ (rest))⟩ = some (x, ⟨stopFrom pp w1, w2 ++ (rest)⟩) :=
    fun p => ih _ _ _ d1 rfl (by simp only [rank]; omega) p _ (.app d2 (by decide) rfl)
  have a1 := fun p k hk => d1.at0 (K := w2 ++ (rest)) rfl p k hk
  have b1 := fun p L hk => d1.among0 (K := w2 ++ (rest)) rfl p L hk
  have c1 := fun p L hk => d1.among0_false (K := w2 ++ (rest)) rfl p L hk
  have g1 := fun K => d1.startOf_app (K := K) rfl
  have e1e := fun p => d1.stop_eq rfl p
  have v1 := fun p => isVar_varId (K := w2 ++ (rest)) d1 p
  have r2 : ∀ pp, parse fu (.plus .typeArg) ⟨pp, w2 ++ (rest)⟩ = some (args, ⟨stopFrom pp w2, rest⟩) :=
    fun p => ih _ _ _ d2 rfl (by simp only [rank]; omega) p _ (hF.mono (by decide))
  have a2 := fun p k hk => d2.at0 (K := rest) rfl p k hk
  have b2 := fun p L hk => d2.among0 (K := rest) rfl p L hk
  have c2 := fun p L hk => d2.among0_false (K := rest) rfl p L hk
  have g2 := fun K => d2.startOf_app (K := K) rfl
  have e2e := fun p => d2.stop_eq rfl p
  simp (decide := true) [pFullExpr, expect_cons, PS.wrap, mkW, startOf_cons, stopOf, stopFrom, stopFrom_append, hA, hB, r1, a1, b1, c1, g1, e1e, v1, r2, a2, b2, c2, g2, e2e]

set_option autoImplicit true in
theorem c_pmExprClause (ih : Comp fu)
    (d1 : Derives .pattern w1 p)
    (d2 : Derives .fullExpr w2 ex)
    (heq : w = ⟨s1, .pipe, e1⟩ :: (w1 ++ ⟨s2, .doubleArrow, e2⟩ :: w2))
    (hl : 32 * w.length + rank .pmExprClause ≤ fu + 1) (hF : Follow (bad .pmExprClause) rest) :
    pPmExprClause (parse fu) ⟨po, w ++ rest⟩ = some (((mkW w (.mk p ex)) : Val .pmExprClause), ⟨stopFrom po w, rest⟩) := by
  have l1 := d1.length_pos rfl
  have l2 := d2.length_pos rfl
  subst heq
  simp only [List.length_append, List.length_cons, List.length_nil, rank] at hl
  have hA := fun p k hk => hF.at p k hk
  have hB := fun p M hM => hF.among (M := M) p hM
  have r1 : ∀ pp, parse fu .pattern ⟨pp, w1 ++ (⟨s2, .doubleArrow, e2⟩ :: (w2 ++ (rest)))⟩ = some (p, ⟨stopFrom pp w1, ⟨s2, .doubleArrow, e2⟩ :: (w2 ++ (rest))⟩) :=
    fun p => ih _ _ _ d1 rfl (by simp only [rank]; omega) p _ (.tok (by decide))
  have a1 := fun p k hk => d1.at0 (K := ⟨s2, .doubleArrow, e2⟩ :: (w2 ++ (rest))) rfl p k hk
  have b1 := fun p L hk => d1.among0 (K := ⟨s2, .doubleArrow, e2⟩ :: (w2 ++ (rest))) rfl p L hk
  have c1 := fun p L hk => d1.among0_false (K := ⟨s2, .doubleArrow, e2⟩ :: (w2 ++ (rest))) rfl p L hk
  have g1 := fun K => d1.startOf_app (K := K) rfl
  have e1e := fun p => d1.stop_eq rfl p
  have r2 : ∀ pp, parse fu .fullExpr ⟨pp, w2 ++ (rest)⟩ = some (ex, ⟨stopFrom pp w2, rest⟩) :=
    fun p => ih _ _ _ d2 rfl (by simp only [rank]; omega) p _ (hF.mono (by decide))
  have a2 := fun p k hk => d2.at0 (K := rest) rfl p k hk
  have b2 := fun p L hk => d2.among0 (K := rest) rfl p L hk
  have c2 := fun p L hk => d2.among0_false (K := rest) rfl p L hk
  have g2 := fun K => d2.startOf_app (K := K) rfl
  have e2e := fun p => d2.stop_eq rfl p
  simp (decide := true) [pPmExprClause, expect_cons, PS.wrap, mkW, startOf_cons, stopOf, stopFrom, stopFrom_append, hA, hB, r1, a1, b1, c1, g1, e1e, r2, a2, b2, c2, g2, e2e]

set_option autoImplicit true in
theorem c_patWildcard (ih : Comp fu)
    (heq : w = [⟨s1, .underscore, e1⟩])
    (hl : 32 * w.length + rank .pattern ≤ fu + 1) (hF : Follow (bad .pattern) rest) :
    pPattern (parse fu) ⟨po, w ++ rest⟩ = some (((mkW w .wildcard) : Val .pattern), ⟨stopFrom po w, rest⟩) := by
  subst heq
  simp only [List.length_append, List.length_cons, List.length_nil, rank] at hl
  have hA := fun p k hk => hF.at p k hk
  have hB := fun p M hM => hF.among (M := M) p hM
  simp (decide := true) [pPattern, expect_cons, PS.wrap, mkW, startOf_cons, stopOf, stopFrom, stopFrom_append, hA, hB]

set_option autoImplicit true in
theorem c_patBinder (ih : Comp fu)
    (d1 : Derives .regularId w x)
    (hl : 32 * w.length + rank .pattern ≤ fu + 1) (hF : Follow (bad .pattern) rest) :
    pPattern (parse fu) ⟨po, w ++ rest⟩ = some (((mkW w (.binder x)) : Val .pattern), ⟨stopFrom po w, rest⟩) := by
  have l1 := d1.length_pos rfl
  simp only [List.length_append, List.length_cons, List.length_nil, rank] at hl
  have hA := fun p k hk => hF.at p k hk
  have hB := fun p M hM => hF.among (M := M) p hM
  have r1 : ∀ pp, parse fu .regularId ⟨pp, w ++ (rest)⟩ = some (x, ⟨stopFrom pp w, rest⟩) :=
    fun p => ih _ _ _ d1 rfl (by simp only [rank]; omega) p _ (hF.mono (by decide))
  have a1 := fun p k hk => d1.at0 (K := rest) rfl p k hk
  have b1 := fun p L hk => d1.among0 (K := rest) rfl p L hk
  have c1 := fun p L hk => d1.among0_false (K := rest) rfl p L hk
  have g1 := fun K => d1.startOf_app (K := K) rfl
  have e1e := fun p => d1.stop_eq rfl p
  have s1_1 : ∀ p k, (PS.mk p (w ++ (rest))).at? 1 k = (PS.mk p (rest)).at? 0 k := fun p k => d1.single_at (K := rest) rfl p 0 k
  have t1_1 : ∀ p k, (PS.mk p (w ++ (rest))).among 1 k = (PS.mk p (rest)).among 0 k := fun p k => d1.single_among (K := rest) rfl p 0 k
  have s1_2 : ∀ p k, (PS.mk p (w ++ (rest))).at? 2 k = (PS.mk p (rest)).at? 1 k := fun p k => d1.single_at (K := rest) rfl p 1 k
  have t1_2 : ∀ p k, (PS.mk p (w ++ (rest))).among 2 k = (PS.mk p (rest)).among 1 k := fun p k => d1.single_among (K := rest) rfl p 1 k
  have s1_3 : ∀ p k, (PS.mk p (w ++ (rest))).at? 3 k = (PS.mk p (rest)).at? 2 k := fun p k => d1.single_at (K := rest) rfl p 2 k
  have t1_3 : ∀ p k, (PS.mk p (w ++ (rest))).among 3 k = (PS.mk p (rest)).among 2 k := fun p k => d1.single_among (K := rest) rfl p 2 k
  have s1_4 : ∀ p k, (PS.mk p (w ++ (rest))).at? 4 k = (PS.mk p (rest)).at? 3 k := fun p k => d1.single_at (K := rest) rfl p 3 k
  have t1_4 : ∀ p k, (PS.mk p (w ++ (rest))).among 4 k = (PS.mk p (rest)).among 3 k := fun p k => d1.single_among (K := rest) rfl p 3 k
  have u1 := fun p => d1.at0_true (K := rest) (k := .identifier []) rfl rfl p
  simp (decide := true) [pPattern, expect_cons, PS.wrap, mkW, startOf_cons, stopOf, stopFrom, stopFrom_append, hA, hB, r1, a1, b1, c1, g1, e1e, s1_1, t1_1, s1_2, t1_2, s1_3, t1_3, s1_4, t1_4, u1]

set_option autoImplicit true in
theorem c_patConstr (ih : Comp fu)
    (d1 : Derives .metaId w1 m)
    (d2 : Derives (.star .argPattern) w2 args)
    (heq : w = w1 ++ w2)
    (hl : 32 * w.length + rank .pattern ≤ fu + 1) (hF : Follow (bad .pattern) rest) :
    pPattern (parse fu) ⟨po, w ++ rest⟩ = some (((mkW w (.constructor m args)) : Val .pattern), ⟨stopFrom po w, rest⟩) := by
  have l1 := d1.length_pos rfl
  subst heq
  simp only [List.length_append, List.length_cons, List.length_nil, rank] at hl
  have hA := fun p k hk => hF.at p k hk
  have hB := fun p M hM => hF.among (M := M) p hM
  have r1 : ∀ pp, parse fu .metaId ⟨pp, w1 ++ (w2 ++ (rest))⟩ = some (m, ⟨stopFrom pp w1, w2 ++ (rest)⟩) :=
    fun p => ih _ _ _ d1 rfl (by simp only [rank]; omega) p _ (.app' d2 (by decide) (hF.mono (by decide)))
  have a1 := fun p k hk => d1.at0 (K := w2 ++ (rest)) rfl p k hk
  have b1 := fun p L hk => d1.among0 (K := w2 ++ (rest)) rfl p L hk
  have c1 := fun p L hk => d1.among0_false (K := w2 ++ (rest)) rfl p L hk
  have g1 := fun K => d1.startOf_app (K := K) rfl
  have e1e := fun p => d1.stop_eq rfl p
  have r2 : ∀ pp, parse fu (.star .argPattern) ⟨pp, w2 ++ (rest)⟩ = some (args, ⟨stopFrom pp w2, rest⟩) :=
    fun p => ih _ _ _ d2 rfl (by simp only [rank]; omega) p _ (hF.mono (by decide))
  simp (decide := true) [pPattern, expect_cons, PS.wrap, mkW, startOf_cons, stopOf, stopFrom, stopFrom_append, hA, hB, r1, a1, b1, c1, g1, e1e, r2]

set_option autoImplicit true in
theorem c_apWildcard (ih : Comp fu)
    (heq : w = [⟨s1, .underscore, e1⟩])
    (hl : 32 * w.length + rank .argPattern ≤ fu + 1) (hF : Follow (bad .argPattern) rest) :
    pArgPattern (parse fu) ⟨po, w ++ rest⟩ = some (((mkW w .wildcardArgument) : Val .argPattern), ⟨stopFrom po w, rest⟩) := by
  subst heq
  simp only [List.length_append, List.length_cons, List.length_nil, rank] at hl
  have hA := fun p k hk => hF.at p k hk
  have hB := fun p M hM => hF.among (M := M) p hM
  simp (decide := true) [pArgPattern, expect_cons, PS.wrap, mkW, startOf_cons, stopOf, stopFrom, stopFrom_append, hA, hB]

set_option autoImplicit true in
theorem c_apBinder (ih : Comp fu)
    (d1 : Derives .regularId w x)
    (hl : 32 * w.length + rank .argPattern ≤ fu + 1) (hF : Follow (bad .argPattern) rest) :
    pArgPattern (parse fu) ⟨po, w ++ rest⟩ = some (((mkW w (.binderArgument x)) : Val .argPattern), ⟨stopFrom po w, rest⟩) := by
  have l1 := d1.length_pos rfl
  simp only [List.length_append, List.length_cons, List.length_nil, rank] at hl
  have hA := fun p k hk => hF.at p k hk
  have hB := fun p M hM => hF.among (M := M) p hM
  have r1 : ∀ pp, parse fu .regularId ⟨pp, w ++ (rest)⟩ = some (x, ⟨stopFrom pp w, rest⟩) :=
    fun p => ih _ _ _ d1 rfl (by simp only [rank]; omega) p _ (hF.mono (by decide))
  have a1 := fun p k hk => d1.at0 (K := rest) rfl p k hk
  have b1 := fun p L hk => d1.among0 (K := rest) rfl p L hk
  have c1 := fun p L hk => d1.among0_false (K := rest) rfl p L hk
  have g1 := fun K => d1.startOf_app (K := K) rfl
  have e1e := fun p => d1.stop_eq rfl p
  have s1_1 : ∀ p k, (PS.mk p (w ++ (rest))).at? 1 k = (PS.mk p (rest)).at? 0 k := fun p k => d1.single_at (K := rest) rfl p 0 k
  have t1_1 : ∀ p k, (PS.mk p (w ++ (rest))).among 1 k = (PS.mk p (rest)).among 0 k := fun p k => d1.single_among (K := rest) rfl p 0 k
  have s1_2 : ∀ p k, (PS.mk p (w ++ (rest))).at? 2 k = (PS.mk p (rest)).at? 1 k := fun p k => d1.single_at (K := rest) rfl p 1 k
  have t1_2 : ∀ p k, (PS.mk p (w ++ (rest))).among 2 k = (PS.mk p (rest)).among 1 k := fun p k => d1.single_among (K := rest) rfl p 1 k
  have s1_3 : ∀ p k, (PS.mk p (w ++ (rest))).at? 3 k = (PS.mk p (rest)).at? 2 k := fun p k => d1.single_at (K := rest) rfl p 2 k
  have t1_3 : ∀ p k, (PS.mk p (w ++ (rest))).among 3 k = (PS.mk p (rest)).among 2 k := fun p k => d1.single_among (K := rest) rfl p 2 k
  have s1_4 : ∀ p k, (PS.mk p (w ++ (rest))).at? 4 k = (PS.mk p (rest)).at? 3 k := fun p k => d1.single_at (K := rest) rfl p 3 k
  have t1_4 : ∀ p k, (PS.mk p (w ++ (rest))).among 4 k = (PS.mk p (rest)).among 3 k := fun p k => d1.single_among (K := rest) rfl p 3 k
  have u1 := fun p => d1.at0_true (K := rest) (k := .identifier []) rfl rfl p
  simp (decide := true) [pArgPattern, expect_cons, PS.wrap, mkW, startOf_cons, stopOf, stopFrom, stopFrom_append, hA, hB, r1, a1, b1, c1, g1, e1e, s1_1, t1_1, s1_2, t1_2, s1_3, t1_3, s1_4, t1_4, u1]

set_option autoImplicit true in
theorem c_apConstr (ih : Comp fu)
    (d1 : Derives .metaId w m)
    (hl : 32 * w.length + rank .argPattern ≤ fu + 1) (hF : Follow (bad .argPattern) rest) :
    pArgPattern (parse fu) ⟨po, w ++ rest⟩ = some (((mkW w (.constructorArgument m)) : Val .argPattern), ⟨stopFrom po w, rest⟩) := by
  have l1 := d1.length_pos rfl
  simp only [List.length_append, List.length_cons, List.length_nil, rank] at hl
  have hA := fun p k hk => hF.at p k hk
  have hB := fun p M hM => hF.among (M := M) p hM
  have r1 : ∀ pp, parse fu .metaId ⟨pp, w ++ (rest)⟩ = some (m, ⟨stopFrom pp w, rest⟩) :=
    fun p => ih _ _ _ d1 rfl (by simp only [rank]; omega) p _ (hF.mono (by decide))
  have a1 := fun p k hk => d1.at0 (K := rest) rfl p k hk
  have b1 := fun p L hk => d1.among0 (K := rest) rfl p L hk
  have c1 := fun p L hk => d1.among0_false (K := rest) rfl p L hk
  have g1 := fun K => d1.startOf_app (K := K) rfl
  have e1e := fun p => d1.stop_eq rfl p
  simp (decide := true) [pArgPattern, expect_cons, PS.wrap, mkW, startOf_cons, stopOf, stopFrom, stopFrom_append, hA, hB, r1, a1, b1, c1, g1, e1e]

set_option autoImplicit true in
theorem c_apParen (ih : Comp fu)
    (d1 : Derives .pattern w1 p)
    (heq : w = ⟨s1, .openParen, e1⟩ :: (w1 ++ [⟨s2, .closeParen, e2⟩]))
    (hl : 32 * w.length + rank .argPattern ≤ fu + 1) (hF : Follow (bad .argPattern) rest) :
    pArgPattern (parse fu) ⟨po, w ++ rest⟩ = some (((mkW w (.patternArgument p)) : Val .argPattern), ⟨stopFrom po w, rest⟩) := by
  have l1 := d1.length_pos rfl
  subst heq
  simp only [List.length_append, List.length_cons, List.length_nil, rank] at hl
  have hA := fun p k hk => hF.at p k hk
  have hB := fun p M hM => hF.among (M := M) p hM
  have r1 : ∀ pp, parse fu .pattern ⟨pp, w1 ++ (⟨s2, .closeParen, e2⟩ :: (rest))⟩ = some (p, ⟨stopFrom pp w1, ⟨s2, .closeParen, e2⟩ :: (rest)⟩) :=
    fun p => ih _ _ _ d1 rfl (by simp only [rank]; omega) p _ (.tok (by decide))
  have a1 := fun p k hk => d1.at0 (K := ⟨s2, .closeParen, e2⟩ :: (rest)) rfl p k hk
  have b1 := fun p L hk => d1.among0 (K := ⟨s2, .closeParen, e2⟩ :: (rest)) rfl p L hk
  have c1 := fun p L hk => d1.among0_false (K := ⟨s2, .closeParen, e2⟩ :: (rest)) rfl p L hk
  have g1 := fun K => d1.startOf_app (K := K) rfl
  have e1e := fun p => d1.stop_eq rfl p
  simp (decide := true) [pArgPattern, expect_cons, PS.wrap, mkW, startOf_cons, stopOf, stopFrom, stopFrom_append, hA, hB, r1, a1, b1, c1, g1, e1e]

set_option autoImplicit true in
theorem c_nextMessage (ih : Comp fu)
    (d1 : Derives .messageEntry w1 m)
    (heq : w = ⟨s1, .semicolon, e1⟩ :: w1)
    (hl : 32 * w.length + rank .nextMessage ≤ fu + 1) (hF : Follow (bad .nextMessage) rest) :
    pNextMessage (parse fu) ⟨po, w ++ rest⟩ = some ((m : Val .nextMessage), ⟨stopFrom po w, rest⟩) := by
  have l1 := d1.length_pos rfl
  subst heq
  simp only [List.length_append, List.length_cons, List.length_nil, rank] at hl
  have hA := fun p k hk => hF.at p k hk
  have hB := fun p M hM => hF.among (M := M) p hM
  have r1 : ∀ pp, parse fu .messageEntry ⟨pp, w1 ++ (rest)⟩ = some (m, ⟨stopFrom pp w1, rest⟩) :=
    fun p => ih _ _ _ d1 rfl (by simp only [rank]; omega) p _ (hF.mono (by decide))
  have a1 := fun p k hk => d1.at0 (K := rest) rfl p k hk
  have b1 := fun p L hk => d1.among0 (K := rest) rfl p L hk
  have c1 := fun p L hk => d1.among0_false (K := rest) rfl p L hk
  have g1 := fun K => d1.startOf_app (K := K) rfl
  have e1e := fun p => d1.stop_eq rfl p
  simp (decide := true) [pNextMessage, expect_cons, PS.wrap, mkW, startOf_cons, stopOf, stopFrom, stopFrom_append, hA, hB, r1, a1, b1, c1, g1, e1e]

set_option autoImplicit true in
theorem c_msgLiteral (ih : Comp fu)
    (d1 : Derives .varId w1 i)
    (d2 : Derives .valueLit w2 v)
    (heq : w = w1 ++ ⟨s1, .colon, e1⟩ :: w2)
    (hl : 32 * w.length + rank .messageEntry ≤ fu + 1) (hF : Follow (bad .messageEntry) rest) :
    pMessageEntry (parse fu) ⟨po, w ++ rest⟩ = some (((mkW w (.messageLiteral i v)) : Val .messageEntry), ⟨stopFrom po w, rest⟩) := by
  have l1 := d1.length_pos rfl
  have l2 := d2.length_pos rfl
  subst heq
  simp only [List.length_append, List.length_cons, List.length_nil, rank] at hl
  have hA := fun p k hk => hF.at p k hk
  have hB := fun p M hM => hF.among (M := M) p hM
  have r1 : ∀ pp, parse fu .varId ⟨pp, w1 ++ (⟨s1, .colon, e1⟩ :: (w2 ++ (rest)))⟩ = some (i, ⟨stopFrom pp w1, ⟨s1, .colon, e1⟩ :: (w2 ++ (rest))⟩) :=
    fun p => ih _ _ _ d1 rfl (by simp only [rank]; omega) p _ (.tok (by decide))
  have a1 := fun p k hk => d1.at0 (K := ⟨s1, .colon, e1⟩ :: (w2 ++ (rest))) rfl p k hk
  have b1 := fun p L hk => d1.among0 (K := ⟨s1, .colon, e1⟩ :: (w2 ++ (rest))) rfl p L hk
  have c1 := fun p L hk => d1.among0_false (K := ⟨s1, .colon, e1⟩ :: (w2 ++ (rest))) rfl p L hk
  have g1 := fun K => d1.startOf_app (K := K) rfl
  have e1e := fun p => d1.stop_eq rfl p
  have v1 := fun p => isVar_varId (K := ⟨s1, .colon, e1⟩ :: (w2 ++ (rest))) d1 p
  have r2 : ∀ pp, parse fu .valueLit ⟨pp, w2 ++ (rest)⟩ = some (v, ⟨stopFrom pp w2, rest⟩) :=
    fun p => ih _ _ _ d2 rfl (by simp only [rank]; omega) p _ (hF.mono (by decide))
  have a2 := fun p k hk => d2.at0 (K := rest) rfl p k hk
  have b2 := fun p L hk => d2.among0 (K := rest) rfl p L hk
  have c2 := fun p L hk => d2.among0_false (K := rest) rfl p L hk
  have g2 := fun K => d2.startOf_app (K := K) rfl
  have e2e := fun p => d2.stop_eq rfl p
  have v2 := fun p => isVar_valueLit (K := rest) d2 p
  simp (decide := true) [pMessageEntry, expect_cons, PS.wrap, mkW, startOf_cons, stopOf, stopFrom, stopFrom_append, hA, hB, r1, a1, b1, c1, g1, e1e, v1, r2, a2, b2, c2, g2, e2e, v2]

set_option autoImplicit true in
theorem c_msgVariable (ih : Comp fu)
    (d1 : Derives .varId w1 i)
    (d2 : Derives .varId w2 v)
    (heq : w = w1 ++ ⟨s1, .colon, e1⟩ :: w2)
    (hl : 32 * w.length + rank .messageEntry ≤ fu + 1) (hF : Follow (bad .messageEntry) rest) :
    pMessageEntry (parse fu) ⟨po, w ++ rest⟩ = some (((mkW w (.messageVariable i v)) : Val .messageEntry), ⟨stopFrom po w, rest⟩) := by
  have l1 := d1.length_pos rfl
  have l2 := d2.length_pos rfl
  subst heq
  simp only [List.length_append, List.length_cons, List.length_nil, rank] at hl
  have hA := fun p k hk => hF.at p k hk
  have hB := fun p M hM => hF.among (M := M) p hM
  have r1 : ∀ pp, parse fu .varId ⟨pp, w1 ++ (⟨s1, .colon, e1⟩ :: (w2 ++ (rest)))⟩ = some (i, ⟨stopFrom pp w1, ⟨s1, .colon, e1⟩ :: (w2 ++ (rest))⟩) :=
    fun p => ih _ _ _ d1 rfl (by simp only [rank]; omega) p _ (.tok (by decide))
  have a1 := fun p k hk => d1.at0 (K := ⟨s1, .colon, e1⟩ :: (w2 ++ (rest))) rfl p k hk
  have b1 := fun p L hk => d1.among0 (K := ⟨s1, .colon, e1⟩ :: (w2 ++ (rest))) rfl p L hk
  have c1 := fun p L hk => d1.among0_false (K := ⟨s1, .colon, e1⟩ :: (w2 ++ (rest))) rfl p L hk
  have g1 := fun K => d1.startOf_app (K := K) rfl
  have e1e := fun p => d1.stop_eq rfl p
  have v1 := fun p => isVar_varId (K := ⟨s1, .colon, e1⟩ :: (w2 ++ (rest))) d1 p
  have r2 : ∀ pp, parse fu .varId ⟨pp, w2 ++ (rest)⟩ = some (v, ⟨stopFrom pp w2, rest⟩) :=
    fun p => ih _ _ _ d2 rfl (by simp only [rank]; omega) p _ (hF.mono (by decide))
  have a2 := fun p k hk => d2.at0 (K := rest) rfl p k hk
  have b2 := fun p L hk => d2.among0 (K := rest) rfl p L hk
  have c2 := fun p L hk => d2.among0_false (K := rest) rfl p L hk
  have g2 := fun K => d2.startOf_app (K := K) rfl
  have e2e := fun p => d2.stop_eq rfl p
  have v2 := fun p => isVar_varId (K := rest) d2 p
  simp (decide := true) [pMessageEntry, expect_cons, PS.wrap, mkW, startOf_cons, stopOf, stopFrom, stopFrom_append, hA, hB, r1, a1, b1, c1, g1, e1e, v1, r2, a2, b2, c2, g2, e2e, v2]

set_option autoImplicit true in
theorem c_atomicVar (ih : Comp fu)
    (d1 : Derives .varId w v)
    (hl : 32 * w.length + rank .atomic ≤ fu + 1) (hF : Follow (bad .atomic) rest) :
    pAtomic (parse fu) ⟨po, w ++ rest⟩ = some (((mkW w (.atomicSid v)) : Val .atomic), ⟨stopFrom po w, rest⟩) := by
  have l1 := d1.length_pos rfl
  simp only [List.length_append, List.length_cons, List.length_nil, rank] at hl
  have hA := fun p k hk => hF.at p k hk
  have hB := fun p M hM => hF.among (M := M) p hM
  have r1 : ∀ pp, parse fu .varId ⟨pp, w ++ (rest)⟩ = some (v, ⟨stopFrom pp w, rest⟩) :=
    fun p => ih _ _ _ d1 rfl (by simp only [rank]; omega) p _ (hF.mono (by decide))
  have a1 := fun p k hk => d1.at0 (K := rest) rfl p k hk
  have b1 := fun p L hk => d1.among0 (K := rest) rfl p L hk
  have c1 := fun p L hk => d1.among0_false (K := rest) rfl p L hk
  have g1 := fun K => d1.startOf_app (K := K) rfl
  have e1e := fun p => d1.stop_eq rfl p
  have v1 := fun p => isVar_varId (K := rest) d1 p
  simp (decide := true) [pAtomic, expect_cons, PS.wrap, mkW, startOf_cons, stopOf, stopFrom, stopFrom_append, hA, hB, r1, a1, b1, c1, g1, e1e, v1]

set_option autoImplicit true in
theorem c_atomicLit (ih : Comp fu)
    (d1 : Derives .valueLit w v)
    (hl : 32 * w.length + rank .atomic ≤ fu + 1) (hF : Follow (bad .atomic) rest) :
    pAtomic (parse fu) ⟨po, w ++ rest⟩ = some (((mkW w (.atomicLit v)) : Val .atomic), ⟨stopFrom po w, rest⟩) := by
  have l1 := d1.length_pos rfl
  simp only [List.length_append, List.length_cons, List.length_nil, rank] at hl
  have hA := fun p k hk => hF.at p k hk
  have hB := fun p M hM => hF.among (M := M) p hM
  have r1 : ∀ pp, parse fu .valueLit ⟨pp, w ++ (rest)⟩ = some (v, ⟨stopFrom pp w, rest⟩) :=
    fun p => ih _ _ _ d1 rfl (by simp only [rank]; omega) p _ (hF.mono (by decide))
  have a1 := fun p k hk => d1.at0 (K := rest) rfl p k hk
  have b1 := fun p L hk => d1.among0 (K := rest) rfl p L hk
  have c1 := fun p L hk => d1.among0_false (K := rest) rfl p L hk
  have g1 := fun K => d1.startOf_app (K := K) rfl
  have e1e := fun p => d1.stop_eq rfl p
  have v1 := fun p => isVar_valueLit (K := rest) d1 p
  simp (decide := true) [pAtomic, expect_cons, PS.wrap, mkW, startOf_cons, stopOf, stopFrom, stopFrom_append, hA, hB, r1, a1, b1, c1, g1, e1e, v1]

set_option autoImplicit true in
theorem c_litInt (ih : Comp fu)
    (d1 : Derives .typeName w1 t)
    (d2 : Derives .signedInt w2 n)
    (heq : w = w1 ++ w2)
    (hl : 32 * w.length + rank .valueLit ≤ fu + 1) (hF : Follow (bad .valueLit) rest) :
    pValueLit (parse fu) ⟨po, w ++ rest⟩ = some (((mkW w (.literalInt t n)) : Val .valueLit), ⟨stopFrom po w, rest⟩) := by
  have l1 := d1.length_pos rfl
  have l2 := d2.length_pos rfl
  subst heq
  simp only [List.length_append, List.length_cons, List.length_nil, rank] at hl
  have hA := fun p k hk => hF.at p k hk
  have hB := fun p M hM => hF.among (M := M) p hM
  have r1 : ∀ pp, parse fu .typeName ⟨pp, w1 ++ (w2 ++ (rest))⟩ = some (t, ⟨stopFrom pp w1, w2 ++ (rest)⟩) :=
    fun p => ih _ _ _ d1 rfl (by simp only [rank]; omega) p _ (.app d2 (by decide) rfl)
  have a1 := fun p k hk => d1.at0 (K := w2 ++ (rest)) rfl p k hk
  have b1 := fun p L hk => d1.among0 (K := w2 ++ (rest)) rfl p L hk
  have c1 := fun p L hk => d1.among0_false (K := w2 ++ (rest)) rfl p L hk
  have g1 := fun K => d1.startOf_app (K := K) rfl
  have e1e := fun p => d1.stop_eq rfl p
  have s1_1 : ∀ p k, (PS.mk p (w1 ++ (w2 ++ (rest)))).at? 1 k = (PS.mk p (w2 ++ (rest))).at? 0 k := fun p k => d1.single_at (K := w2 ++ (rest)) rfl p 0 k
  have t1_1 : ∀ p k, (PS.mk p (w1 ++ (w2 ++ (rest)))).among 1 k = (PS.mk p (w2 ++ (rest))).among 0 k := fun p k => d1.single_among (K := w2 ++ (rest)) rfl p 0 k
  have s1_2 : ∀ p k, (PS.mk p (w1 ++ (w2 ++ (rest)))).at? 2 k = (PS.mk p (w2 ++ (rest))).at? 1 k := fun p k => d1.single_at (K := w2 ++ (rest)) rfl p 1 k
  have t1_2 : ∀ p k, (PS.mk p (w1 ++ (w2 ++ (rest)))).among 2 k = (PS.mk p (w2 ++ (rest))).among 1 k := fun p k => d1.single_among (K := w2 ++ (rest)) rfl p 1 k
  have s1_3 : ∀ p k, (PS.mk p (w1 ++ (w2 ++ (rest)))).at? 3 k = (PS.mk p (w2 ++ (rest))).at? 2 k := fun p k => d1.single_at (K := w2 ++ (rest)) rfl p 2 k
  have t1_3 : ∀ p k, (PS.mk p (w1 ++ (w2 ++ (rest)))).among 3 k = (PS.mk p (w2 ++ (rest))).among 2 k := fun p k => d1.single_among (K := w2 ++ (rest)) rfl p 2 k
  have s1_4 : ∀ p k, (PS.mk p (w1 ++ (w2 ++ (rest)))).at? 4 k = (PS.mk p (w2 ++ (rest))).at? 3 k := fun p k => d1.single_at (K := w2 ++ (rest)) rfl p 3 k
  have t1_4 : ∀ p k, (PS.mk p (w1 ++ (w2 ++ (rest)))).among 4 k = (PS.mk p (w2 ++ (rest))).among 3 k := fun p k => d1.single_among (K := w2 ++ (rest)) rfl p 3 k
  have r2 : ∀ pp, parse fu .signedInt ⟨pp, w2 ++ (rest)⟩ = some (n, ⟨stopFrom pp w2, rest⟩) :=
    fun p => ih _ _ _ d2 rfl (by simp only [rank]; omega) p _ (hF.mono (by decide))
  have a2 := fun p k hk => d2.at0 (K := rest) rfl p k hk
  have b2 := fun p L hk => d2.among0 (K := rest) rfl p L hk
  have c2 := fun p L hk => d2.among0_false (K := rest) rfl p L hk
  have g2 := fun K => d2.startOf_app (K := K) rfl
  have e2e := fun p => d2.stop_eq rfl p
  have s2_1 : ∀ p k, (PS.mk p (w2 ++ (rest))).at? 1 k = (PS.mk p (rest)).at? 0 k := fun p k => d2.single_at (K := rest) rfl p 0 k
  have t2_1 : ∀ p k, (PS.mk p (w2 ++ (rest))).among 1 k = (PS.mk p (rest)).among 0 k := fun p k => d2.single_among (K := rest) rfl p 0 k
  have s2_2 : ∀ p k, (PS.mk p (w2 ++ (rest))).at? 2 k = (PS.mk p (rest)).at? 1 k := fun p k => d2.single_at (K := rest) rfl p 1 k
  have t2_2 : ∀ p k, (PS.mk p (w2 ++ (rest))).among 2 k = (PS.mk p (rest)).among 1 k := fun p k => d2.single_among (K := rest) rfl p 1 k
  have s2_3 : ∀ p k, (PS.mk p (w2 ++ (rest))).at? 3 k = (PS.mk p (rest)).at? 2 k := fun p k => d2.single_at (K := rest) rfl p 2 k
  have t2_3 : ∀ p k, (PS.mk p (w2 ++ (rest))).among 3 k = (PS.mk p (rest)).among 2 k := fun p k => d2.single_among (K := rest) rfl p 2 k
  have s2_4 : ∀ p k, (PS.mk p (w2 ++ (rest))).at? 4 k = (PS.mk p (rest)).at? 3 k := fun p k => d2.single_at (K := rest) rfl p 3 k
  have t2_4 : ∀ p k, (PS.mk p (w2 ++ (rest))).among 4 k = (PS.mk p (rest)).among 3 k := fun p k => d2.single_among (K := rest) rfl p 3 k
  have u2 := fun p => d2.at0_true (K := rest) (k := .number []) rfl rfl p
  simp (decide := true) [pValueLit, expect_cons, PS.wrap, mkW, startOf_cons, stopOf, stopFrom, stopFrom_append, hA, hB, r1, a1, b1, c1, g1, e1e, s1_1, t1_1, s1_2, t1_2, s1_3, t1_3, s1_4, t1_4, r2, a2, b2, c2, g2, e2e, s2_1, t2_1, s2_2, t2_2, s2_3, t2_3, s2_4, t2_4, u2]

set_option autoImplicit true in
theorem c_litHex (ih : Comp fu)
    (d1 : Derives .hexNumber w x)
    (hl : 32 * w.length + rank .valueLit ≤ fu + 1) (hF : Follow (bad .valueLit) rest) :
    pValueLit (parse fu) ⟨po, w ++ rest⟩ = some (((mkW w (.literalHex x)) : Val .valueLit), ⟨stopFrom po w, rest⟩) := by
  have l1 := d1.length_pos rfl
  simp only [List.length_append, List.length_cons, List.length_nil, rank] at hl
  have hA := fun p k hk => hF.at p k hk
  have hB := fun p M hM => hF.among (M := M) p hM
  have r1 : ∀ pp, parse fu .hexNumber ⟨pp, w ++ (rest)⟩ = some (x, ⟨stopFrom pp w, rest⟩) :=
    fun p => ih _ _ _ d1 rfl (by simp only [rank]; omega) p _ (hF.mono (by decide))
  have a1 := fun p k hk => d1.at0 (K := rest) rfl p k hk
  have b1 := fun p L hk => d1.among0 (K := rest) rfl p L hk
  have c1 := fun p L hk => d1.among0_false (K := rest) rfl p L hk
  have g1 := fun K => d1.startOf_app (K := K) rfl
  have e1e := fun p => d1.stop_eq rfl p
  have s1_1 : ∀ p k, (PS.mk p (w ++ (rest))).at? 1 k = (PS.mk p (rest)).at? 0 k := fun p k => d1.single_at (K := rest) rfl p 0 k
  have t1_1 : ∀ p k, (PS.mk p (w ++ (rest))).among 1 k = (PS.mk p (rest)).among 0 k := fun p k => d1.single_among (K := rest) rfl p 0 k
  have s1_2 : ∀ p k, (PS.mk p (w ++ (rest))).at? 2 k = (PS.mk p (rest)).at? 1 k := fun p k => d1.single_at (K := rest) rfl p 1 k
  have t1_2 : ∀ p k, (PS.mk p (w ++ (rest))).among 2 k = (PS.mk p (rest)).among 1 k := fun p k => d1.single_among (K := rest) rfl p 1 k
  have s1_3 : ∀ p k, (PS.mk p (w ++ (rest))).at? 3 k = (PS.mk p (rest)).at? 2 k := fun p k => d1.single_at (K := rest) rfl p 2 k
  have t1_3 : ∀ p k, (PS.mk p (w ++ (rest))).among 3 k = (PS.mk p (rest)).among 2 k := fun p k => d1.single_among (K := rest) rfl p 2 k
  have s1_4 : ∀ p k, (PS.mk p (w ++ (rest))).at? 4 k = (PS.mk p (rest)).at? 3 k := fun p k => d1.single_at (K := rest) rfl p 3 k
  have t1_4 : ∀ p k, (PS.mk p (w ++ (rest))).among 4 k = (PS.mk p (rest)).among 3 k := fun p k => d1.single_among (K := rest) rfl p 3 k
  have u1 := fun p => d1.at0_true (K := rest) (k := .hexNumber []) rfl rfl p
  simp (decide := true) [pValueLit, expect_cons, PS.wrap, mkW, startOf_cons, stopOf, stopFrom, stopFrom_append, hA, hB, r1, a1, b1, c1, g1, e1e, s1_1, t1_1, s1_2, t1_2, s1_3, t1_3, s1_4, t1_4, u1]

set_option autoImplicit true in
theorem c_litString (ih : Comp fu)
    (d1 : Derives .stringLit w x)
    (hl : 32 * w.length + rank .valueLit ≤ fu + 1) (hF : Follow (bad .valueLit) rest) :
    pValueLit (parse fu) ⟨po, w ++ rest⟩ = some (((mkW w (.literalString x)) : Val .valueLit), ⟨stopFrom po w, rest⟩) := by
  have l1 := d1.length_pos rfl
  simp only [List.length_append, List.length_cons, List.length_nil, rank] at hl
  have hA := fun p k hk => hF.at p k hk
  have hB := fun p M hM => hF.among (M := M) p hM
  have r1 : ∀ pp, parse fu .stringLit ⟨pp, w ++ (rest)⟩ = some (x, ⟨stopFrom pp w, rest⟩) :=
    fun p => ih _ _ _ d1 rfl (by simp only [rank]; omega) p _ (hF.mono (by decide))
  have a1 := fun p k hk => d1.at0 (K := rest) rfl p k hk
  have b1 := fun p L hk => d1.among0 (K := rest) rfl p L hk
  have c1 := fun p L hk => d1.among0_false (K := rest) rfl p L hk
  have g1 := fun K => d1.startOf_app (K := K) rfl
  have e1e := fun p => d1.stop_eq rfl p
  have s1_1 : ∀ p k, (PS.mk p (w ++ (rest))).at? 1 k = (PS.mk p (rest)).at? 0 k := fun p k => d1.single_at (K := rest) rfl p 0 k
  have t1_1 : ∀ p k, (PS.mk p (w ++ (rest))).among 1 k = (PS.mk p (rest)).among 0 k := fun p k => d1.single_among (K := rest) rfl p 0 k
  have s1_2 : ∀ p k, (PS.mk p (w ++ (rest))).at? 2 k = (PS.mk p (rest)).at? 1 k := fun p k => d1.single_at (K := rest) rfl p 1 k
  have t1_2 : ∀ p k, (PS.mk p (w ++ (rest))).among 2 k = (PS.mk p (rest)).among 1 k := fun p k => d1.single_among (K := rest) rfl p 1 k
  have s1_3 : ∀ p k, (PS.mk p (w ++ (rest))).at? 3 k = (PS.mk p (rest)).at? 2 k := fun p k => d1.single_at (K := rest) rfl p 2 k
  have t1_3 : ∀ p k, (PS.mk p (w ++ (rest))).among 3 k = (PS.mk p (rest)).among 2 k := fun p k => d1.single_among (K := rest) rfl p 2 k
  have s1_4 : ∀ p k, (PS.mk p (w ++ (rest))).at? 4 k = (PS.mk p (rest)).at? 3 k := fun p k => d1.single_at (K := rest) rfl p 3 k
  have t1_4 : ∀ p k, (PS.mk p (w ++ (rest))).among 4 k = (PS.mk p (rest)).among 3 k := fun p k => d1.single_among (K := rest) rfl p 3 k
  have u1 := fun p => d1.at0_true (K := rest) (k := .stringLiteral []) rfl rfl p
  simp (decide := true) [pValueLit, expect_cons, PS.wrap, mkW, startOf_cons, stopOf, stopFrom, stopFrom_append, hA, hB, r1, a1, b1, c1, g1, e1e, s1_1, t1_1, s1_2, t1_2, s1_3, t1_3, s1_4, t1_4, u1]

set_option autoImplicit true in
theorem c_litEmp (ih : Comp fu)
    (d1 : Derives .mapKey w1 k)
    (d2 : Derives .mapValue w2 v)
    (heq : w = ⟨s1, .emp, e1⟩ :: (w1 ++ w2))
    (hl : 32 * w.length + rank .valueLit ≤ fu + 1) (hF : Follow (bad .valueLit) rest) :
    pValueLit (parse fu) ⟨po, w ++ rest⟩ = some (((mkW w (.literalEmptyMap k v)) : Val .valueLit), ⟨stopFrom po w, rest⟩) := by
  have l1 := d1.length_pos rfl
  have l2 := d2.length_pos rfl
  subst heq
  simp only [List.length_append, List.length_cons, List.length_nil, rank] at hl
  have hA := fun p k hk => hF.at p k hk
  have hB := fun p M hM => hF.among (M := M) p hM
  have r1 : ∀ pp, parse fu .mapKey ⟨pp, w1 ++ (w2 ++ (rest))⟩ = some (k, ⟨stopFrom pp w1, w2 ++ (rest)⟩) :=
    fun p => ih _ _ _ d1 rfl (by simp only [rank]; omega) p _ (.app d2 (by decide) rfl)
  have a1 := fun p k hk => d1.at0 (K := w2 ++ (rest)) rfl p k hk
  have b1 := fun p L hk => d1.among0 (K := w2 ++ (rest)) rfl p L hk
  have c1 := fun p L hk => d1.among0_false (K := w2 ++ (rest)) rfl p L hk
  have g1 := fun K => d1.startOf_app (K := K) rfl
  have e1e := fun p => d1.stop_eq rfl p
  have r2 : ∀ pp, parse fu .mapValue ⟨pp, w2 ++ (rest)⟩ = some (v, ⟨stopFrom pp w2, rest⟩) :=
    fun p => ih _ _ _ d2 rfl (by simp only [rank]; omega) p _ (hF.mono (by decide))
  have a2 := fun p k hk => d2.at0 (K := rest) rfl p k hk
  have b2 := fun p L hk => d2.among0 (K := rest) rfl p L hk
  have c2 := fun p L hk => d2.among0_false (K := rest) rfl p L hk
  have g2 := fun K => d2.startOf_app (K := K) rfl
  have e2e := fun p => d2.stop_eq rfl p
  simp (decide := true) [pValueLit, expect_cons, PS.wrap, mkW, startOf_cons, stopOf, stopFrom, stopFrom_append, hA, hB, r1, a1, b1, c1, g1, e1e, r2, a2, b2, c2, g2, e2e]

set_option autoImplicit true in
theorem c_stLoad (ih : Comp fu)
    (d1 : Derives .regularId w1 x)
    (d2 : Derives .varId w2 v)
    (heq : w = w1 ++ ⟨s1, .leftArrow, e1⟩ :: w2)
    (hl : 32 * w.length + rank .statement ≤ fu + 1) (hF : Follow (bad .statement) rest) :
    pStatement (parse fu) ⟨po, w ++ rest⟩ = some (((.load x v) : Val .statement), ⟨stopFrom po w, rest⟩) := by
  have l1 := d1.length_pos rfl
  have l2 := d2.length_pos rfl
  subst heq
  simp only [List.length_append, List.length_cons, List.length_nil, rank] at hl
  have hA := fun p k hk => hF.at p k hk
  have hB := fun p M hM => hF.among (M := M) p hM
  have r1 : ∀ pp, parse fu .regularId ⟨pp, w1 ++ (⟨s1, .leftArrow, e1⟩ :: (w2 ++ (rest)))⟩ = some (x, ⟨stopFrom pp w1, ⟨s1, .leftArrow, e1⟩ :: (w2 ++ (rest))⟩) :=
    fun p => ih _ _ _ d1 rfl (by simp only [rank]; omega) p _ (.tok (by decide))
  have a1 := fun p k hk => d1.at0 (K := ⟨s1, .leftArrow, e1⟩ :: (w2 ++ (rest))) rfl p k hk
  have b1 := fun p L hk => d1.among0 (K := ⟨s1, .leftArrow, e1⟩ :: (w2 ++ (rest))) rfl p L hk
  have c1 := fun p L hk => d1.among0_false (K := ⟨s1, .leftArrow, e1⟩ :: (w2 ++ (rest))) rfl p L hk
  have g1 := fun K => d1.startOf_app (K := K) rfl
  have e1e := fun p => d1.stop_eq rfl p
  have s1_1 : ∀ p k, (PS.mk p (w1 ++ (⟨s1, .leftArrow, e1⟩ :: (w2 ++ (rest))))).at? 1 k = (PS.mk p (⟨s1, .leftArrow, e1⟩ :: (w2 ++ (rest)))).at? 0 k := fun p k => d1.single_at (K := ⟨s1, .leftArrow, e1⟩ :: (w2 ++ (rest))) rfl p 0 k
  have t1_1 : ∀ p k, (PS.mk p (w1 ++ (⟨s1, .leftArrow, e1⟩ :: (w2 ++ (rest))))).among 1 k = (PS.mk p (⟨s1, .leftArrow, e1⟩ :: (w2 ++ (rest)))).among 0 k := fun p k => d1.single_among (K := ⟨s1, .leftArrow, e1⟩ :: (w2 ++ (rest))) rfl p 0 k
  have s1_2 : ∀ p k, (PS.mk p (w1 ++ (⟨s1, .leftArrow, e1⟩ :: (w2 ++ (rest))))).at? 2 k = (PS.mk p (⟨s1, .leftArrow, e1⟩ :: (w2 ++ (rest)))).at? 1 k := fun p k => d1.single_at (K := ⟨s1, .leftArrow, e1⟩ :: (w2 ++ (rest))) rfl p 1 k
  have t1_2 : ∀ p k, (PS.mk p (w1 ++ (⟨s1, .leftArrow, e1⟩ :: (w2 ++ (rest))))).among 2 k = (PS.mk p (⟨s1, .leftArrow, e1⟩ :: (w2 ++ (rest)))).among 1 k := fun p k => d1.single_among (K := ⟨s1, .leftArrow, e1⟩ :: (w2 ++ (rest))) rfl p 1 k
  have s1_3 : ∀ p k, (PS.mk p (w1 ++ (⟨s1, .leftArrow, e1⟩ :: (w2 ++ (rest))))).at? 3 k = (PS.mk p (⟨s1, .leftArrow, e1⟩ :: (w2 ++ (rest)))).at? 2 k := fun p k => d1.single_at (K := ⟨s1, .leftArrow, e1⟩ :: (w2 ++ (rest))) rfl p 2 k
  have t1_3 : ∀ p k, (PS.mk p (w1 ++ (⟨s1, .leftArrow, e1⟩ :: (w2 ++ (rest))))).among 3 k = (PS.mk p (⟨s1, .leftArrow, e1⟩ :: (w2 ++ (rest)))).among 2 k := fun p k => d1.single_among (K := ⟨s1, .leftArrow, e1⟩ :: (w2 ++ (rest))) rfl p 2 k
  have s1_4 : ∀ p k, (PS.mk p (w1 ++ (⟨s1, .leftArrow, e1⟩ :: (w2 ++ (rest))))).at? 4 k = (PS.mk p (⟨s1, .leftArrow, e1⟩ :: (w2 ++ (rest)))).at? 3 k := fun p k => d1.single_at (K := ⟨s1, .leftArrow, e1⟩ :: (w2 ++ (rest))) rfl p 3 k
  have t1_4 : ∀ p k, (PS.mk p (w1 ++ (⟨s1, .leftArrow, e1⟩ :: (w2 ++ (rest))))).among 4 k = (PS.mk p (⟨s1, .leftArrow, e1⟩ :: (w2 ++ (rest)))).among 3 k := fun p k => d1.single_among (K := ⟨s1, .leftArrow, e1⟩ :: (w2 ++ (rest))) rfl p 3 k
  have u1 := fun p => d1.at0_true (K := ⟨s1, .leftArrow, e1⟩ :: (w2 ++ (rest))) (k := .identifier []) rfl rfl p
  have r2 : ∀ pp, parse fu .varId ⟨pp, w2 ++ (rest)⟩ = some (v, ⟨stopFrom pp w2, rest⟩) :=
    fun p => ih _ _ _ d2 rfl (by simp only [rank]; omega) p _ (hF.mono (by decide))
  have a2 := fun p k hk => d2.at0 (K := rest) rfl p k hk
  have b2 := fun p L hk => d2.among0 (K := rest) rfl p L hk
  have c2 := fun p L hk => d2.among0_false (K := rest) rfl p L hk
  have g2 := fun K => d2.startOf_app (K := K) rfl
  have e2e := fun p => d2.stop_eq rfl p
  have v2 := fun p => isVar_varId (K := rest) d2 p
  rcases varId_shape (K := rest) d2 with x2 | x2 <;>
    simp (decide := true) [pStatement, expect_cons, PS.wrap, mkW, startOf_cons, stopOf, stopFrom, stopFrom_append, hA, hB, r1, a1, b1, c1, g1, e1e, s1_1, t1_1, s1_2, t1_2, s1_3, t1_3, s1_4, t1_4, u1, r2, a2, b2, c2, g2, e2e, v2, x2]

set_option autoImplicit true in
theorem c_stStore (ih : Comp fu)
    (d1 : Derives .regularId w1 x)
    (d2 : Derives .varId w2 v)
    (heq : w = w1 ++ ⟨s1, .colonEquals, e1⟩ :: w2)
    (hl : 32 * w.length + rank .statement ≤ fu + 1) (hF : Follow (bad .statement) rest) :
    pStatement (parse fu) ⟨po, w ++ rest⟩ = some (((.store x v) : Val .statement), ⟨stopFrom po w, rest⟩) := by
  have l1 := d1.length_pos rfl
  have l2 := d2.length_pos rfl
  subst heq
  simp only [List.length_append, List.length_cons, List.length_nil, rank] at hl
  have hA := fun p k hk => hF.at p k hk
  have hB := fun p M hM => hF.among (M := M) p hM
  have r1 : ∀ pp, parse fu .regularId ⟨pp, w1 ++ (⟨s1, .colonEquals, e1⟩ :: (w2 ++ (rest)))⟩ = some (x, ⟨stopFrom pp w1, ⟨s1, .colonEquals, e1⟩ :: (w2 ++ (rest))⟩) :=
    fun p => ih _ _ _ d1 rfl (by simp only [rank]; omega) p _ (.tok (by decide))
  have a1 := fun p k hk => d1.at0 (K := ⟨s1, .colonEquals, e1⟩ :: (w2 ++ (rest))) rfl p k hk
  have b1 := fun p L hk => d1.among0 (K := ⟨s1, .colonEquals, e1⟩ :: (w2 ++ (rest))) rfl p L hk
  have c1 := fun p L hk => d1.among0_false (K := ⟨s1, .colonEquals, e1⟩ :: (w2 ++ (rest))) rfl p L hk
  have g1 := fun K => d1.startOf_app (K := K) rfl
  have e1e := fun p => d1.stop_eq rfl p
  have s1_1 : ∀ p k, (PS.mk p (w1 ++ (⟨s1, .colonEquals, e1⟩ :: (w2 ++ (rest))))).at? 1 k = (PS.mk p (⟨s1, .colonEquals, e1⟩ :: (w2 ++ (rest)))).at? 0 k := fun p k => d1.single_at (K := ⟨s1, .colonEquals, e1⟩ :: (w2 ++ (rest))) rfl p 0 k
  have t1_1 : ∀ p k, (PS.mk p (w1 ++ (⟨s1, .colonEquals, e1⟩ :: (w2 ++ (rest))))).among 1 k = (PS.mk p (⟨s1, .colonEquals, e1⟩ :: (w2 ++ (rest)))).among 0 k := fun p k => d1.single_among (K := ⟨s1, .colonEquals, e1⟩ :: (w2 ++ (rest))) rfl p 0 k
  have s1_2 : ∀ p k, (PS.mk p (w1 ++ (⟨s1, .colonEquals, e1⟩ :: (w2 ++ (rest))))).at? 2 k = (PS.mk p (⟨s1, .colonEquals, e1⟩ :: (w2 ++ (rest)))).at? 1 k := fun p k => d1.single_at (K := ⟨s1, .colonEquals, e1⟩ :: (w2 ++ (rest))) rfl p 1 k
  have t1_2 : ∀ p k, (PS.mk p (w1 ++ (⟨s1, .colonEquals, e1⟩ :: (w2 ++ (rest))))).among 2 k = (PS.mk p (⟨s1, .colonEquals, e1⟩ :: (w2 ++ (rest)))).among 1 k := fun p k => d1.single_among (K := ⟨s1, .colonEquals, e1⟩ :: (w2 ++ (rest))) rfl p 1 k
  have s1_3 : ∀ p k, (PS.mk p (w1 ++ (⟨s1, .colonEquals, e1⟩ :: (w2 ++ (rest))))).at? 3 k = (PS.mk p (⟨s1, .colonEquals, e1⟩ :: (w2 ++ (rest)))).at? 2 k := fun p k => d1.single_at (K := ⟨s1, .colonEquals, e1⟩ :: (w2 ++ (rest))) rfl p 2 k
  have t1_3 : ∀ p k, (PS.mk p (w1 ++ (⟨s1, .colonEquals, e1⟩ :: (w2 ++ (rest))))).among 3 k = (PS.mk p (⟨s1, .colonEquals, e1⟩ :: (w2 ++ (rest)))).among 2 k := fun p k => d1.single_among (K := ⟨s1, .colonEquals, e1⟩ :: (w2 ++ (rest))) rfl p 2 k
  have s1_4 : ∀ p k, (PS.mk p (w1 ++ (⟨s1, .colonEquals, e1⟩ :: (w2 ++ (rest))))).at? 4 k = (PS.mk p (⟨s1, .colonEquals, e1⟩ :: (w2 ++ (rest)))).at? 3 k := fun p k => d1.single_at (K := ⟨s1, .colonEquals, e1⟩ :: (w2 ++ (rest))) rfl p 3 k
  have t1_4 : ∀ p k, (PS.mk p (w1 ++ (⟨s1, .colonEquals, e1⟩ :: (w2 ++ (rest))))).among 4 k = (PS.mk p (⟨s1, .colonEquals, e1⟩ :: (w2 ++ (rest)))).among 3 k := fun p k => d1.single_among (K := ⟨s1, .colonEquals, e1⟩ :: (w2 ++ (rest))) rfl p 3 k
  have u1 := fun p => d1.at0_true (K := ⟨s1, .colonEquals, e1⟩ :: (w2 ++ (rest))) (k := .identifier []) rfl rfl p
  have r2 : ∀ pp, parse fu .varId ⟨pp, w2 ++ (rest)⟩ = some (v, ⟨stopFrom pp w2, rest⟩) :=
    fun p => ih _ _ _ d2 rfl (by simp only [rank]; omega) p _ (hF.mono (by decide))
  have a2 := fun p k hk => d2.at0 (K := rest) rfl p k hk
  have b2 := fun p L hk => d2.among0 (K := rest) rfl p L hk
  have c2 := fun p L hk => d2.among0_false (K := rest) rfl p L hk
  have g2 := fun K => d2.startOf_app (K := K) rfl
  have e2e := fun p => d2.stop_eq rfl p
  have v2 := fun p => isVar_varId (K := rest) d2 p
  simp (decide := true) [pStatement, expect_cons, PS.wrap, mkW, startOf_cons, stopOf, stopFrom, stopFrom_append, hA, hB, r1, a1, b1, c1, g1, e1e, s1_1, t1_1, s1_2, t1_2, s1_3, t1_3, s1_4, t1_4, u1, r2, a2, b2, c2, g2, e2e, v2]

set_option autoImplicit true in
theorem c_stBind (ih : Comp fu)
    (d1 : Derives .regularId w1 x)
    (d2 : Derives .fullExpr w2 ex)
    (heq : w = w1 ++ ⟨s1, .equals, e1⟩ :: w2)
    (hl : 32 * w.length + rank .statement ≤ fu + 1) (hF : Follow (bad .statement) rest) :
    pStatement (parse fu) ⟨po, w ++ rest⟩ = some (((.bind x ex) : Val .statement), ⟨stopFrom po w, rest⟩) := by
  have l1 := d1.length_pos rfl
  have l2 := d2.length_pos rfl
  subst heq
  simp only [List.length_append, List.length_cons, List.length_nil, rank] at hl
  have hA := fun p k hk => hF.at p k hk
  have hB := fun p M hM => hF.among (M := M) p hM
  have r1 : ∀ pp, parse fu .regularId ⟨pp, w1 ++ (⟨s1, .equals, e1⟩ :: (w2 ++ (rest)))⟩ = some (x, ⟨stopFrom pp w1, ⟨s1, .equals, e1⟩ :: (w2 ++ (rest))⟩) :=
    fun p => ih _ _ _ d1 rfl (by simp only [rank]; omega) p _ (.tok (by decide))
  have a1 := fun p k hk => d1.at0 (K := ⟨s1, .equals, e1⟩ :: (w2 ++ (rest))) rfl p k hk
  have b1 := fun p L hk => d1.among0 (K := ⟨s1, .equals, e1⟩ :: (w2 ++ (rest))) rfl p L hk
  have c1 := fun p L hk => d1.among0_false (K := ⟨s1, .equals, e1⟩ :: (w2 ++ (rest))) rfl p L hk
  have g1 := fun K => d1.startOf_app (K := K) rfl
  have e1e := fun p => d1.stop_eq rfl p
  have s1_1 : ∀ p k, (PS.mk p (w1 ++ (⟨s1, .equals, e1⟩ :: (w2 ++ (rest))))).at? 1 k = (PS.mk p (⟨s1, .equals, e1⟩ :: (w2 ++ (rest)))).at? 0 k := fun p k => d1.single_at (K := ⟨s1, .equals, e1⟩ :: (w2 ++ (rest))) rfl p 0 k
  have t1_1 : ∀ p k, (PS.mk p (w1 ++ (⟨s1, .equals, e1⟩ :: (w2 ++ (rest))))).among 1 k = (PS.mk p (⟨s1, .equals, e1⟩ :: (w2 ++ (rest)))).among 0 k := fun p k => d1.single_among (K := ⟨s1, .equals, e1⟩ :: (w2 ++ (rest))) rfl p 0 k
  have s1_2 : ∀ p k, (PS.mk p (w1 ++ (⟨s1, .equals, e1⟩ :: (w2 ++ (rest))))).at? 2 k = (PS.mk p (⟨s1, .equals, e1⟩ :: (w2 ++ (rest)))).at? 1 k := fun p k => d1.single_at (K := ⟨s1, .equals, e1⟩ :: (w2 ++ (rest))) rfl p 1 k
  have t1_2 : ∀ p k, (PS.mk p (w1 ++ (⟨s1, .equals, e1⟩ :: (w2 ++ (rest))))).among 2 k = (PS.mk p (⟨s1, .equals, e1⟩ :: (w2 ++ (rest)))).among 1 k := fun p k => d1.single_among (K := ⟨s1, .equals, e1⟩ :: (w2 ++ (rest))) rfl p 1 k
  have s1_3 : ∀ p k, (PS.mk p (w1 ++ (⟨s1, .equals, e1⟩ :: (w2 ++ (rest))))).at? 3 k = (PS.mk p (⟨s1, .equals, e1⟩ :: (w2 ++ (rest)))).at? 2 k := fun p k => d1.single_at (K := ⟨s1, .equals, e1⟩ :: (w2 ++ (rest))) rfl p 2 k
  have t1_3 : ∀ p k, (PS.mk p (w1 ++ (⟨s1, .equals, e1⟩ :: (w2 ++ (rest))))).among 3 k = (PS.mk p (⟨s1, .equals, e1⟩ :: (w2 ++ (rest)))).among 2 k := fun p k => d1.single_among (K := ⟨s1, .equals, e1⟩ :: (w2 ++ (rest))) rfl p 2 k
  have s1_4 : ∀ p k, (PS.mk p (w1 ++ (⟨s1, .equals, e1⟩ :: (w2 ++ (rest))))).at? 4 k = (PS.mk p (⟨s1, .equals, e1⟩ :: (w2 ++ (rest)))).at? 3 k := fun p k => d1.single_at (K := ⟨s1, .equals, e1⟩ :: (w2 ++ (rest))) rfl p 3 k
  have t1_4 : ∀ p k, (PS.mk p (w1 ++ (⟨s1, .equals, e1⟩ :: (w2 ++ (rest))))).among 4 k = (PS.mk p (⟨s1, .equals, e1⟩ :: (w2 ++ (rest)))).among 3 k := fun p k => d1.single_among (K := ⟨s1, .equals, e1⟩ :: (w2 ++ (rest))) rfl p 3 k
  have u1 := fun p => d1.at0_true (K := ⟨s1, .equals, e1⟩ :: (w2 ++ (rest))) (k := .identifier []) rfl rfl p
  have r2 : ∀ pp, parse fu .fullExpr ⟨pp, w2 ++ (rest)⟩ = some (ex, ⟨stopFrom pp w2, rest⟩) :=
    fun p => ih _ _ _ d2 rfl (by simp only [rank]; omega) p _ (hF.mono (by decide))
  have a2 := fun p k hk => d2.at0 (K := rest) rfl p k hk
  have b2 := fun p L hk => d2.among0 (K := rest) rfl p L hk
  have c2 := fun p L hk => d2.among0_false (K := rest) rfl p L hk
  have g2 := fun K => d2.startOf_app (K := K) rfl
  have e2e := fun p => d2.stop_eq rfl p
  simp (decide := true) [pStatement, expect_cons, PS.wrap, mkW, startOf_cons, stopOf, stopFrom, stopFrom_append, hA, hB, r1, a1, b1, c1, g1, e1e, s1_1, t1_1, s1_2, t1_2, s1_3, t1_3, s1_4, t1_4, u1, r2, a2, b2, c2, g2, e2e]

set_option autoImplicit true in
theorem c_stReadBC (ih : Comp fu)
    (d1 : Derives .regularId w1 x)
    (d2 : Derives .typeName w2 t)
    (d3 : Derives (.opt .bcFetchArgs) w3 args)
    (heq : w = w1 ++ ⟨s1, .leftArrow, e1⟩ :: ⟨s2, .ampersand, e2⟩ :: (w2 ++ w3))
    (hl : 32 * w.length + rank .statement ≤ fu + 1) (hF : Follow (bad .statement) rest) :
    pStatement (parse fu) ⟨po, w ++ rest⟩ = some (((.readFromBC x t args) : Val .statement), ⟨stopFrom po w, rest⟩) := by
  have l1 := d1.length_pos rfl
  have l2 := d2.length_pos rfl
  subst heq
  simp only [List.length_append, List.length_cons, List.length_nil, rank] at hl
  have hA := fun p k hk => hF.at p k hk
  have hB := fun p M hM => hF.among (M := M) p hM
  have r1 : ∀ pp, parse fu .regularId ⟨pp, w1 ++ (⟨s1, .leftArrow, e1⟩ :: (⟨s2, .ampersand, e2⟩ :: (w2 ++ (w3 ++ (rest)))))⟩ = some (x, ⟨stopFrom pp w1, ⟨s1, .leftArrow, e1⟩ :: (⟨s2, .ampersand, e2⟩ :: (w2 ++ (w3 ++ (rest))))⟩) :=
    fun p => ih _ _ _ d1 rfl (by simp only [rank]; omega) p _ (.tok (by decide))
  have a1 := fun p k hk => d1.at0 (K := ⟨s1, .leftArrow, e1⟩ :: (⟨s2, .ampersand, e2⟩ :: (w2 ++ (w3 ++ (rest))))) rfl p k hk
  have b1 := fun p L hk => d1.among0 (K := ⟨s1, .leftArrow, e1⟩ :: (⟨s2, .ampersand, e2⟩ :: (w2 ++ (w3 ++ (rest))))) rfl p L hk
  have c1 := fun p L hk => d1.among0_false (K := ⟨s1, .leftArrow, e1⟩ :: (⟨s2, .ampersand, e2⟩ :: (w2 ++ (w3 ++ (rest))))) rfl p L hk
  have g1 := fun K => d1.startOf_app (K := K) rfl
  have e1e := fun p => d1.stop_eq rfl p
  have s1_1 : ∀ p k, (PS.mk p (w1 ++ (⟨s1, .leftArrow, e1⟩ :: (⟨s2, .ampersand, e2⟩ :: (w2 ++ (w3 ++ (rest))))))).at? 1 k = (PS.mk p (⟨s1, .leftArrow, e1⟩ :: (⟨s2, .ampersand, e2⟩ :: (w2 ++ (w3 ++ (rest)))))).at? 0 k := fun p k => d1.single_at (K := ⟨s1, .leftArrow, e1⟩ :: (⟨s2, .ampersand, e2⟩ :: (w2 ++ (w3 ++ (rest))))) rfl p 0 k
  have t1_1 : ∀ p k, (PS.mk p (w1 ++ (⟨s1, .leftArrow, e1⟩ :: (⟨s2, .ampersand, e2⟩ :: (w2 ++ (w3 ++ (rest))))))).among 1 k = (PS.mk p (⟨s1, .leftArrow, e1⟩ :: (⟨s2, .ampersand, e2⟩ :: (w2 ++ (w3 ++ (rest)))))).among 0 k := fun p k => d1.single_among (K := ⟨s1, .leftArrow, e1⟩ :: (⟨s2, .ampersand, e2⟩ :: (w2 ++ (w3 ++ (rest))))) rfl p 0 k
  have s1_2 : ∀ p k, (PS.mk p (w1 ++ (⟨s1, .leftArrow, e1⟩ :: (⟨s2, .ampersand, e2⟩ :: (w2 ++ (w3 ++ (rest))))))).at? 2 k = (PS.mk p (⟨s1, .leftArrow, e1⟩ :: (⟨s2, .ampersand, e2⟩ :: (w2 ++ (w3 ++ (rest)))))).at? 1 k := fun p k => d1.single_at (K := ⟨s1, .leftArrow, e1⟩ :: (⟨s2, .ampersand, e2⟩ :: (w2 ++ (w3 ++ (rest))))) rfl p 1 k
  have t1_2 : ∀ p k, (PS.mk p (w1 ++ (⟨s1, .leftArrow, e1⟩ :: (⟨s2, .ampersand, e2⟩ :: (w2 ++ (w3 ++ (rest))))))).among 2 k = (PS.mk p (⟨s1, .leftArrow, e1⟩ :: (⟨s2, .ampersand, e2⟩ :: (w2 ++ (w3 ++ (rest)))))).among 1 k := fun p k => d1.single_among (K := ⟨s1, .leftArrow, e1⟩ :: (⟨s2, .ampersand, e2⟩ :: (w2 ++ (w3 ++ (rest))))) rfl p 1 k
  have s1_3 : ∀ p k, (PS.mk p (w1 ++ (⟨s1, .leftArrow, e1⟩ :: (⟨s2, .ampersand, e2⟩ :: (w2 ++ (w3 ++ (rest))))))).at? 3 k = (PS.mk p (⟨s1, .leftArrow, e1⟩ :: (⟨s2, .ampersand, e2⟩ :: (w2 ++ (w3 ++ (rest)))))).at? 2 k := fun p k => d1.single_at (K := ⟨s1, .leftArrow, e1⟩ :: (⟨s2, .ampersand, e2⟩ :: (w2 ++ (w3 ++ (rest))))) rfl p 2 k
  have t1_3 : ∀ p k, (PS.mk p (w1 ++ (⟨s1, .leftArrow, e1⟩ :: (⟨s2, .ampersand, e2⟩ :: (w2 ++ (w3 ++ (rest))))))).among 3 k = (PS.mk p (⟨s1, .leftArrow, e1⟩ :: (⟨s2, .ampersand, e2⟩ :: (w2 ++ (w3 ++ (rest)))))).among 2 k := fun p k => d1.single_among (K := ⟨s1, .leftArrow, e1⟩ :: (⟨s2, .ampersand, e2⟩ :: (w2 ++ (w3 ++ (rest))))) rfl p 2 k
  have s1_4 : ∀ p k, (PS.mk p (w1 ++ (⟨s1, .leftArrow, e1⟩ :: (⟨s2, .ampersand, e2⟩ :: (w2 ++ (w3 ++ (rest))))))).at? 4 k = (PS.mk p (⟨s1, .leftArrow, e1⟩ :: (⟨s2, .ampersand, e2⟩ :: (w2 ++ (w3 ++ (rest)))))).at? 3 k := fun p k => d1.single_at (K := ⟨s1, .leftArrow, e1⟩ :: (⟨s2, .ampersand, e2⟩ :: (w2 ++ (w3 ++ (rest))))) rfl p 3 k
  have t1_4 : ∀ p k, (PS.mk p (w1 ++ (⟨s1, .leftArrow, e1⟩ :: (⟨s2, .ampersand, e2⟩ :: (w2 ++ (w3 ++ (rest))))))).among 4 k = (PS.mk p (⟨s1, .leftArrow, e1⟩ :: (⟨s2, .ampersand, e2⟩ :: (w2 ++ (w3 ++ (rest)))))).among 3 k := fun p k => d1.single_among (K := ⟨s1, .leftArrow, e1⟩ :: (⟨s2, .ampersand, e2⟩ :: (w2 ++ (w3 ++ (rest))))) rfl p 3 k
  have u1 := fun p => d1.at0_true (K := ⟨s1, .leftArrow, e1⟩ :: (⟨s2, .ampersand, e2⟩ :: (w2 ++ (w3 ++ (rest))))) (k := .identifier []) rfl rfl p
  have r2 : ∀ pp, parse fu .typeName ⟨pp, w2 ++ (w3 ++ (rest))⟩ = some (t, ⟨stopFrom pp w2, w3 ++ (rest)⟩) :=
    fun p => ih _ _ _ d2 rfl (by simp only [rank]; omega) p _ (.app' d3 (by decide) (hF.mono (by decide)))
  have a2 := fun p k hk => d2.at0 (K := w3 ++ (rest)) rfl p k hk
  have b2 := fun p L hk => d2.among0 (K := w3 ++ (rest)) rfl p L hk
  have c2 := fun p L hk => d2.among0_false (K := w3 ++ (rest)) rfl p L hk
  have g2 := fun K => d2.startOf_app (K := K) rfl
  have e2e := fun p => d2.stop_eq rfl p
  have s2_1 : ∀ p k, (PS.mk p (w2 ++ (w3 ++ (rest)))).at? 1 k = (PS.mk p (w3 ++ (rest))).at? 0 k := fun p k => d2.single_at (K := w3 ++ (rest)) rfl p 0 k
  have t2_1 : ∀ p k, (PS.mk p (w2 ++ (w3 ++ (rest)))).among 1 k = (PS.mk p (w3 ++ (rest))).among 0 k := fun p k => d2.single_among (K := w3 ++ (rest)) rfl p 0 k
  have s2_2 : ∀ p k, (PS.mk p (w2 ++ (w3 ++ (rest)))).at? 2 k = (PS.mk p (w3 ++ (rest))).at? 1 k := fun p k => d2.single_at (K := w3 ++ (rest)) rfl p 1 k
  have t2_2 : ∀ p k, (PS.mk p (w2 ++ (w3 ++ (rest)))).among 2 k = (PS.mk p (w3 ++ (rest))).among 1 k := fun p k => d2.single_among (K := w3 ++ (rest)) rfl p 1 k
  have s2_3 : ∀ p k, (PS.mk p (w2 ++ (w3 ++ (rest)))).at? 3 k = (PS.mk p (w3 ++ (rest))).at? 2 k := fun p k => d2.single_at (K := w3 ++ (rest)) rfl p 2 k
  have t2_3 : ∀ p k, (PS.mk p (w2 ++ (w3 ++ (rest)))).among 3 k = (PS.mk p (w3 ++ (rest))).among 2 k := fun p k => d2.single_among (K := w3 ++ (rest)) rfl p 2 k
  have s2_4 : ∀ p k, (PS.mk p (w2 ++ (w3 ++ (rest)))).at? 4 k = (PS.mk p (w3 ++ (rest))).at? 3 k := fun p k => d2.single_at (K := w3 ++ (rest)) rfl p 3 k
  have t2_4 : ∀ p k, (PS.mk p (w2 ++ (w3 ++ (rest)))).among 4 k = (PS.mk p (w3 ++ (rest))).among 3 k := fun p k => d2.single_among (K := w3 ++ (rest)) rfl p 3 k
  have r3 : ∀ pp, parse fu (.opt .bcFetchArgs) ⟨pp, w3 ++ (rest)⟩ = some (args, ⟨stopFrom pp w3, rest⟩) :=
    fun p => ih _ _ _ d3 rfl (by simp only [rank]; omega) p _ (hF.mono (by decide))
  have f3 := fun p k hk => Follow.at (L := [.dot]) (ts := w3 ++ (rest)) (.app' d3 (by decide) (hF.mono (by decide))) p k hk
  simp (decide := true) [pStatement, expect_cons, PS.wrap, mkW, startOf_cons, stopOf, stopFrom, stopFrom_append, hA, hB, r1, a1, b1, c1, g1, e1e, s1_1, t1_1, s1_2, t1_2, s1_3, t1_3, s1_4, t1_4, u1, r2, a2, b2, c2, g2, e2e, s2_1, t2_1, s2_2, t2_2, s2_3, t2_3, s2_4, t2_4, r3, f3]

set_option autoImplicit true in
theorem c_stMapGet (ih : Comp fu)
    (d1 : Derives .regularId w1 x)
    (d2 : Derives .regularId w2 y)
    (d3 : Derives (.plus .mapAccess) w3 ks)
    (heq : w = w1 ++ ⟨s1, .leftArrow, e1⟩ :: (w2 ++ w3))
    (hl : 32 * w.length + rank .statement ≤ fu + 1) (hF : Follow (bad .statement) rest) :
    pStatement (parse fu) ⟨po, w ++ rest⟩ = some (((.mapGet x ks y) : Val .statement), ⟨stopFrom po w, rest⟩) := by
  have l1 := d1.length_pos rfl
  have l2 := d2.length_pos rfl
  have l3 := d3.length_pos rfl
  subst heq
  simp only [List.length_append, List.length_cons, List.length_nil, rank] at hl
  have hA := fun p k hk => hF.at p k hk
  have hB := fun p M hM => hF.among (M := M) p hM
  have r1 : ∀ pp, parse fu .regularId ⟨pp, w1 ++ (⟨s1, .leftArrow, e1⟩ :: (w2 ++ (w3 ++ (rest))))⟩ = some (x, ⟨stopFrom pp w1, ⟨s1, .leftArrow, e1⟩ :: (w2 ++ (w3 ++ (rest)))⟩) :=
    fun p => ih _ _ _ d1 rfl (by simp only [rank]; omega) p _ (.tok (by decide))
  have a1 := fun p k hk => d1.at0 (K := ⟨s1, .leftArrow, e1⟩ :: (w2 ++ (w3 ++ (rest)))) rfl p k hk
  have b1 := fun p L hk => d1.among0 (K := ⟨s1, .leftArrow, e1⟩ :: (w2 ++ (w3 ++ (rest)))) rfl p L hk
  have c1 := fun p L hk => d1.among0_false (K := ⟨s1, .leftArrow, e1⟩ :: (w2 ++ (w3 ++ (rest)))) rfl p L hk
  have g1 := fun K => d1.startOf_app (K := K) rfl
  have e1e := fun p => d1.stop_eq rfl p
  have s1_1 : ∀ p k, (PS.mk p (w1 ++ (⟨s1, .leftArrow, e1⟩ :: (w2 ++ (w3 ++ (rest)))))).at? 1 k = (PS.mk p (⟨s1, .leftArrow, e1⟩ :: (w2 ++ (w3 ++ (rest))))).at? 0 k := fun p k => d1.single_at (K := ⟨s1, .leftArrow, e1⟩ :: (w2 ++ (w3 ++ (rest)))) rfl p 0 k
  have t1_1 : ∀ p k, (PS.mk p (w1 ++ (⟨s1, .leftArrow, e1⟩ :: (w2 ++ (w3 ++ (rest)))))).among 1 k = (PS.mk p (⟨s1, .leftArrow, e1⟩ :: (w2 ++ (w3 ++ (rest))))).among 0 k := fun p k => d1.single_among (K := ⟨s1, .leftArrow, e1⟩ :: (w2 ++ (w3 ++ (rest)))) rfl p 0 k
  have s1_2 : ∀ p k, (PS.mk p (w1 ++ (⟨s1, .leftArrow, e1⟩ :: (w2 ++ (w3 ++ (rest)))))).at? 2 k = (PS.mk p (⟨s1, .leftArrow, e1⟩ :: (w2 ++ (w3 ++ (rest))))).at? 1 k := fun p k => d1.single_at (K := ⟨s1, .leftArrow, e1⟩ :: (w2 ++ (w3 ++ (rest)))) rfl p 1 k
  have t1_2 : ∀ p k, (PS.mk p (w1 ++ (⟨s1, .leftArrow, e1⟩ :: (w2 ++ (w3 ++ (rest)))))).among 2 k = (PS.mk p (⟨s1, .leftArrow, e1⟩ :: (w2 ++ (w3 ++ (rest))))).among 1 k := fun p k => d1.single_among (K := ⟨s1, .leftArrow, e1⟩ :: (w2 ++ (w3 ++ (rest)))) rfl p 1 k
  have s1_3 : ∀ p k, (PS.mk p (w1 ++ (⟨s1, .leftArrow, e1⟩ :: (w2 ++ (w3 ++ (rest)))))).at? 3 k = (PS.mk p (⟨s1, .leftArrow, e1⟩ :: (w2 ++ (w3 ++ (rest))))).at? 2 k := fun p k => d1.single_at (K := ⟨s1, .leftArrow, e1⟩ :: (w2 ++ (w3 ++ (rest)))) rfl p 2 k
  have t1_3 : ∀ p k, (PS.mk p (w1 ++ (⟨s1, .leftArrow, e1⟩ :: (w2 ++ (w3 ++ (rest)))))).among 3 k = (PS.mk p (⟨s1, .leftArrow, e1⟩ :: (w2 ++ (w3 ++ (rest))))).among 2 k := fun p k => d1.single_among (K := ⟨s1, .leftArrow, e1⟩ :: (w2 ++ (w3 ++ (rest)))) rfl p 2 k
  have s1_4 : ∀ p k, (PS.mk p (w1 ++ (⟨s1, .leftArrow, e1⟩ :: (w2 ++ (w3 ++ (rest)))))).at? 4 k = (PS.mk p (⟨s1, .leftArrow, e1⟩ :: (w2 ++ (w3 ++ (rest))))).at? 3 k := fun p k => d1.single_at (K := ⟨s1, .leftArrow, e1⟩ :: (w2 ++ (w3 ++ (rest)))) rfl p 3 k
  have t1_4 : ∀ p k, (PS.mk p (w1 ++ (⟨s1, .leftArrow, e1⟩ :: (w2 ++ (w3 ++ (rest)))))).among 4 k = (PS.mk p (⟨s1, .leftArrow, e1⟩ :: (w2 ++ (w3 ++ (rest))))).among 3 k := fun p k => d1.single_among (K := ⟨s1, .leftArrow, e1⟩ :: (w2 ++ (w3 ++ (rest)))) rfl p 3 k
  have u1 := fun p => d1.at0_true (K := ⟨s1, .leftArrow, e1⟩ :: (w2 ++ (w3 ++ (rest)))) (k := .identifier []) rfl rfl p
  have r2 : ∀ pp, parse fu .regularId ⟨pp, w2 ++ (w3 ++ (rest))⟩ = some (y, ⟨stopFrom pp w2, w3 ++ (rest)⟩) :=
    fun p => ih _ _ _ d2 rfl (by simp only [rank]; omega) p _ (.app d3 (by decide) rfl)
  have a2 := fun p k hk => d2.at0 (K := w3 ++ (rest)) rfl p k hk
  have b2 := fun p L hk => d2.among0 (K := w3 ++ (rest)) rfl p L hk
  have c2 := fun p L hk => d2.among0_false (K := w3 ++ (rest)) rfl p L hk
  have g2 := fun K => d2.startOf_app (K := K) rfl
  have e2e := fun p => d2.stop_eq rfl p
  have s2_1 : ∀ p k, (PS.mk p (w2 ++ (w3 ++ (rest)))).at? 1 k = (PS.mk p (w3 ++ (rest))).at? 0 k := fun p k => d2.single_at (K := w3 ++ (rest)) rfl p 0 k
  have t2_1 : ∀ p k, (PS.mk p (w2 ++ (w3 ++ (rest)))).among 1 k = (PS.mk p (w3 ++ (rest))).among 0 k := fun p k => d2.single_among (K := w3 ++ (rest)) rfl p 0 k
  have s2_2 : ∀ p k, (PS.mk p (w2 ++ (w3 ++ (rest)))).at? 2 k = (PS.mk p (w3 ++ (rest))).at? 1 k := fun p k => d2.single_at (K := w3 ++ (rest)) rfl p 1 k
  have t2_2 : ∀ p k, (PS.mk p (w2 ++ (w3 ++ (rest)))).among 2 k = (PS.mk p (w3 ++ (rest))).among 1 k := fun p k => d2.single_among (K := w3 ++ (rest)) rfl p 1 k
  have s2_3 : ∀ p k, (PS.mk p (w2 ++ (w3 ++ (rest)))).at? 3 k = (PS.mk p (w3 ++ (rest))).at? 2 k := fun p k => d2.single_at (K := w3 ++ (rest)) rfl p 2 k
  have t2_3 : ∀ p k, (PS.mk p (w2 ++ (w3 ++ (rest)))).among 3 k = (PS.mk p (w3 ++ (rest))).among 2 k := fun p k => d2.single_among (K := w3 ++ (rest)) rfl p 2 k
  have s2_4 : ∀ p k, (PS.mk p (w2 ++ (w3 ++ (rest)))).at? 4 k = (PS.mk p (w3 ++ (rest))).at? 3 k := fun p k => d2.single_at (K := w3 ++ (rest)) rfl p 3 k
  have t2_4 : ∀ p k, (PS.mk p (w2 ++ (w3 ++ (rest)))).among 4 k = (PS.mk p (w3 ++ (rest))).among 3 k := fun p k => d2.single_among (K := w3 ++ (rest)) rfl p 3 k
  have u2 := fun p => d2.at0_true (K := w3 ++ (rest)) (k := .identifier []) rfl rfl p
  have r3 : ∀ pp, parse fu (.plus .mapAccess) ⟨pp, w3 ++ (rest)⟩ = some (ks, ⟨stopFrom pp w3, rest⟩) :=
    fun p => ih _ _ _ d3 rfl (by simp only [rank]; omega) p _ (hF.mono (by decide))
  have a3 := fun p k hk => d3.at0 (K := rest) rfl p k hk
  have b3 := fun p L hk => d3.among0 (K := rest) rfl p L hk
  have c3 := fun p L hk => d3.among0_false (K := rest) rfl p L hk
  have g3 := fun K => d3.startOf_app (K := K) rfl
  have e3e := fun p => d3.stop_eq rfl p
  have u3 := fun p => d3.at0_true (K := rest) (k := .openBracket) rfl rfl p
  simp (decide := true) [pStatement, expect_cons, PS.wrap, mkW, startOf_cons, stopOf, stopFrom, stopFrom_append, hA, hB, r1, a1, b1, c1, g1, e1e, s1_1, t1_1, s1_2, t1_2, s1_3, t1_3, s1_4, t1_4, u1, r2, a2, b2, c2, g2, e2e, s2_1, t2_1, s2_2, t2_2, s2_3, t2_3, s2_4, t2_4, u2, r3, a3, b3, c3, g3, e3e, u3]

set_option autoImplicit true in
theorem c_stMapGetExists (ih : Comp fu)
    (d1 : Derives .regularId w1 x)
    (d2 : Derives .regularId w2 y)
    (d3 : Derives (.plus .mapAccess) w3 ks)
    (heq : w = w1 ++ ⟨s1, .leftArrow, e1⟩ :: ⟨s2, .exists_, e2⟩ :: (w2 ++ w3))
    (hl : 32 * w.length + rank .statement ≤ fu + 1) (hF : Follow (bad .statement) rest) :
    pStatement (parse fu) ⟨po, w ++ rest⟩ = some (((.mapGetExists x ks y) : Val .statement), ⟨stopFrom po w, rest⟩) := by
  have l1 := d1.length_pos rfl
  have l2 := d2.length_pos rfl
  have l3 := d3.length_pos rfl
  subst heq
  simp only [List.length_append, List.length_cons, List.length_nil, rank] at hl
  have hA := fun p k hk => hF.at p k hk
  have hB := fun p M hM => hF.among (M := M) p hM
  have r1 : ∀ pp, parse fu .regularId ⟨pp, w1 ++ (⟨s1, .leftArrow, e1⟩ :: (⟨s2, .exists_, e2⟩ :: (w2 ++ (w3 ++ (rest)))))⟩ = some (x, ⟨stopFrom pp w1, ⟨s1, .leftArrow, e1⟩ :: (⟨s2, .exists_, e2⟩ :: (w2 ++ (w3 ++ (rest))))⟩) :=
    fun p => ih _ _ _ d1 rfl (by simp only [rank]; omega) p _ (.tok (by decide))
  have a1 := fun p k hk => d1.at0 (K := ⟨s1, .leftArrow, e1⟩ :: (⟨s2, .exists_, e2⟩ :: (w2 ++ (w3 ++ (rest))))) rfl p k hk
  have b1 := fun p L hk => d1.among0 (K := ⟨s1, .leftArrow, e1⟩ :: (⟨s2, .exists_, e2⟩ :: (w2 ++ (w3 ++ (rest))))) rfl p L hk
  have c1 := fun p L hk => d1.among0_false (K := ⟨s1, .leftArrow, e1⟩ :: (⟨s2, .exists_, e2⟩ :: (w2 ++ (w3 ++ (rest))))) rfl p L hk
  have g1 := fun K => d1.startOf_app (K := K) rfl
  have e1e := fun p => d1.stop_eq rfl p
  have s1_1 : ∀ p k, (PS.mk p (w1 ++ (⟨s1, .leftArrow, e1⟩ :: (⟨s2, .exists_, e2⟩ :: (w2 ++ (w3 ++ (rest))))))).at? 1 k = (PS.mk p (⟨s1, .leftArrow, e1⟩ :: (⟨s2, .exists_, e2⟩ :: (w2 ++ (w3 ++ (rest)))))).at? 0 k := fun p k => d1.single_at (K := ⟨s1, .leftArrow, e1⟩ :: (⟨s2, .exists_, e2⟩ :: (w2 ++ (w3 ++ (rest))))) rfl p 0 k
  have t1_1 : ∀ p k, (PS.mk p (w1 ++ (⟨s1, .leftArrow, e1⟩ :: (⟨s2, .exists_, e2⟩ :: (w2 ++ (w3 ++ (rest))))))).among 1 k = (PS.mk p (⟨s1, .leftArrow, e1⟩ :: (⟨s2, .exists_, e2⟩ :: (w2 ++ (w3 ++ (rest)))))).among 0 k := fun p k => d1.single_among (K := ⟨s1, .leftArrow, e1⟩ :: (⟨s2, .exists_, e2⟩ :: (w2 ++ (w3 ++ (rest))))) rfl p 0 k
  have s1_2 : ∀ p k, (PS.mk p (w1 ++ (⟨s1, .leftArrow, e1⟩ :: (⟨s2, .exists_, e2⟩ :: (w2 ++ (w3 ++ (rest))))))).at? 2 k = (PS.mk p (⟨s1, .leftArrow, e1⟩ :: (⟨s2, .exists_, e2⟩ :: (w2 ++ (w3 ++ (rest)))))).at? 1 k := fun p k => d1.single_at (K := ⟨s1, .leftArrow, e1⟩ :: (⟨s2, .exists_, e2⟩ :: (w2 ++ (w3 ++ (rest))))) rfl p 1 k
  have t1_2 : ∀ p k, (PS.mk p (w1 ++ (⟨s1, .leftArrow, e1⟩ :: (⟨s2, .exists_, e2⟩ :: (w2 ++ (w3 ++ (rest))))))).among 2 k = (PS.mk p (⟨s1, .leftArrow, e1⟩ :: (⟨s2, .exists_, e2⟩ :: (w2 ++ (w3 ++ (rest)))))).among 1 k := fun p k => d1.single_among (K := ⟨s1, .leftArrow, e1⟩ :: (⟨s2, .exists_, e2⟩ :: (w2 ++ (w3 ++ (rest))))) rfl p 1 k
  have s1_3 : ∀ p k, (PS.mk p (w1 ++ (⟨s1, .leftArrow, e1⟩ :: (⟨s2, .exists_, e2⟩ :: (w2 ++ (w3 ++ (rest))))))).at? 3 k = (PS.mk p (⟨s1, .leftArrow, e1⟩ :: (⟨s2, .exists_, e2⟩ :: (w2 ++ (w3 ++ (rest)))))).at? 2 k := fun p k => d1.single_at (K := ⟨s1, .leftArrow, e1⟩ :: (⟨s2, .exists_, e2⟩ :: (w2 ++ (w3 ++ (rest))))) rfl p 2 k
  have t1_3 : ∀ p k, (PS.mk p (w1 ++ (⟨s1, .leftArrow, e1⟩ :: (⟨s2, .exists_, e2⟩ :: (w2 ++ (w3 ++ (rest))))))).among 3 k = (PS.mk p (⟨s1, .leftArrow, e1⟩ :: (⟨s2, .exists_, e2⟩ :: (w2 ++ (w3 ++ (rest)))))).among 2 k := fun p k => d1.single_among (K := ⟨s1, .leftArrow, e1⟩ :: (⟨s2, .exists_, e2⟩ :: (w2 ++ (w3 ++ (rest))))) rfl p 2 k
  have s1_4 : ∀ p k, (PS.mk p (w1 ++ (⟨s1, .leftArrow, e1⟩ :: (⟨s2, .exists_, e2⟩ :: (w2 ++ (w3 ++ (rest))))))).at? 4 k = (PS.mk p (⟨s1, .leftArrow, e1⟩ :: (⟨s2, .exists_, e2⟩ :: (w2 ++ (w3 ++ (rest)))))).at? 3 k := fun p k => d1.single_at (K := ⟨s1, .leftArrow, e1⟩ :: (⟨s2, .exists_, e2⟩ :: (w2 ++ (w3 ++ (rest))))) rfl p 3 k
  have t1_4 : ∀ p k, (PS.mk p (w1 ++ (⟨s1, .leftArrow, e1⟩ :: (⟨s2, .exists_, e2⟩ :: (w2 ++ (w3 ++ (rest))))))).among 4 k = (PS.mk p (⟨s1, .leftArrow, e1⟩ :: (⟨s2, .exists_, e2⟩ :: (w2 ++ (w3 ++ (rest)))))).among 3 k := fun p k => d1.single_among (K := ⟨s1, .leftArrow, e1⟩ :: (⟨s2, .exists_, e2⟩ :: (w2 ++ (w3 ++ (rest))))) rfl p 3 k
  have u1 := fun p => d1.at0_true (K := ⟨s1, .leftArrow, e1⟩ :: (⟨s2, .exists_, e2⟩ :: (w2 ++ (w3 ++ (rest))))) (k := .identifier []) rfl rfl p
  have r2 : ∀ pp, parse fu .regularId ⟨pp, w2 ++ (w3 ++ (rest))⟩ = some (y, ⟨stopFrom pp w2, w3 ++ (rest)⟩) :=
    fun p => ih _ _ _ d2 rfl (by simp only [rank]; omega) p _ (.app d3 (by decide) rfl)
  have a2 := fun p k hk => d2.at0 (K := w3 ++ (rest)) rfl p k hk
  have b2 := fun p L hk => d2.among0 (K := w3 ++ (rest)) rfl p L hk
  have c2 := fun p L hk => d2.among0_false (K := w3 ++ (rest)) rfl p L hk
  have g2 := fun K => d2.startOf_app (K := K) rfl
  have e2e := fun p => d2.stop_eq rfl p
  have s2_1 : ∀ p k, (PS.mk p (w2 ++ (w3 ++ (rest)))).at? 1 k = (PS.mk p (w3 ++ (rest))).at? 0 k := fun p k => d2.single_at (K := w3 ++ (rest)) rfl p 0 k
  have t2_1 : ∀ p k, (PS.mk p (w2 ++ (w3 ++ (rest)))).among 1 k = (PS.mk p (w3 ++ (rest))).among 0 k := fun p k => d2.single_among (K := w3 ++ (rest)) rfl p 0 k
  have s2_2 : ∀ p k, (PS.mk p (w2 ++ (w3 ++ (rest)))).at? 2 k = (PS.mk p (w3 ++ (rest))).at? 1 k := fun p k => d2.single_at (K := w3 ++ (rest)) rfl p 1 k
  have t2_2 : ∀ p k, (PS.mk p (w2 ++ (w3 ++ (rest)))).among 2 k = (PS.mk p (w3 ++ (rest))).among 1 k := fun p k => d2.single_among (K := w3 ++ (rest)) rfl p 1 k
  have s2_3 : ∀ p k, (PS.mk p (w2 ++ (w3 ++ (rest)))).at? 3 k = (PS.mk p (w3 ++ (rest))).at? 2 k := fun p k => d2.single_at (K := w3 ++ (rest)) rfl p 2 k
  have t2_3 : ∀ p k, (PS.mk p (w2 ++ (w3 ++ (rest)))).among 3 k = (PS.mk p (w3 ++ (rest))).among 2 k := fun p k => d2.single_among (K := w3 ++ (rest)) rfl p 2 k
  have s2_4 : ∀ p k, (PS.mk p (w2 ++ (w3 ++ (rest)))).at? 4 k = (PS.mk p (w3 ++ (rest))).at? 3 k := fun p k => d2.single_at (K := w3 ++ (rest)) rfl p 3 k
  have t2_4 : ∀ p k, (PS.mk p (w2 ++ (w3 ++ (rest)))).among 4 k = (PS.mk p (w3 ++ (rest))).among 3 k := fun p k => d2.single_among (K := w3 ++ (rest)) rfl p 3 k
  have u2 := fun p => d2.at0_true (K := w3 ++ (rest)) (k := .identifier []) rfl rfl p
  have r3 : ∀ pp, parse fu (.plus .mapAccess) ⟨pp, w3 ++ (rest)⟩ = some (ks, ⟨stopFrom pp w3, rest⟩) :=
    fun p => ih _ _ _ d3 rfl (by simp only [rank]; omega) p _ (hF.mono (by decide))
  have a3 := fun p k hk => d3.at0 (K := rest) rfl p k hk
  have b3 := fun p L hk => d3.among0 (K := rest) rfl p L hk
  have c3 := fun p L hk => d3.among0_false (K := rest) rfl p L hk
  have g3 := fun K => d3.startOf_app (K := K) rfl
  have e3e := fun p => d3.stop_eq rfl p
  have u3 := fun p => d3.at0_true (K := rest) (k := .openBracket) rfl rfl p
  simp (decide := true) [pStatement, expect_cons, PS.wrap, mkW, startOf_cons, stopOf, stopFrom, stopFrom_append, hA, hB, r1, a1, b1, c1, g1, e1e, s1_1, t1_1, s1_2, t1_2, s1_3, t1_3, s1_4, t1_4, u1, r2, a2, b2, c2, g2, e2e, s2_1, t2_1, s2_2, t2_2, s2_3, t2_3, s2_4, t2_4, u2, r3, a3, b3, c3, g3, e3e, u3]

set_option autoImplicit true in
theorem c_stMapUpdate (ih : Comp fu)
    (d1 : Derives .regularId w1 x)
    (d2 : Derives (.plus .mapAccess) w2 ks)
    (d3 : Derives .varId w3 v)
    (heq : w = w1 ++ (w2 ++ ⟨s1, .colonEquals, e1⟩ :: w3))
    (hl : 32 * w.length + rank .statement ≤ fu + 1) (hF : Follow (bad .statement) rest) :
    pStatement (parse fu) ⟨po, w ++ rest⟩ = some (((.mapUpdate x ks v) : Val .statement), ⟨stopFrom po w, rest⟩) := by
  have l1 := d1.length_pos rfl
  have l2 := d2.length_pos rfl
  have l3 := d3.length_pos rfl
  subst heq
  simp only [List.length_append, List.length_cons, List.length_nil, rank] at hl
  have hA := fun p k hk => hF.at p k hk
  have hB := fun p M hM => hF.among (M := M) p hM
  have r1 : ∀ pp, parse fu .regularId ⟨pp, w1 ++ (w2 ++ (⟨s1, .colonEquals, e1⟩ :: (w3 ++ (rest))))⟩ = some (x, ⟨stopFrom pp w1, w2 ++ (⟨s1, .colonEquals, e1⟩ :: (w3 ++ (rest)))⟩) :=
    fun p => ih _ _ _ d1 rfl (by simp only [rank]; omega) p _ (.app d2 (by decide) rfl)
  have a1 := fun p k hk => d1.at0 (K := w2 ++ (⟨s1, .colonEquals, e1⟩ :: (w3 ++ (rest)))) rfl p k hk
  have b1 := fun p L hk => d1.among0 (K := w2 ++ (⟨s1, .colonEquals, e1⟩ :: (w3 ++ (rest)))) rfl p L hk
  have c1 := fun p L hk => d1.among0_false (K := w2 ++ (⟨s1, .colonEquals, e1⟩ :: (w3 ++ (rest)))) rfl p L hk
  have g1 := fun K => d1.startOf_app (K := K) rfl
  have e1e := fun p => d1.stop_eq rfl p
  have s1_1 : ∀ p k, (PS.mk p (w1 ++ (w2 ++ (⟨s1, .colonEquals, e1⟩ :: (w3 ++ (rest)))))).at? 1 k = (PS.mk p (w2 ++ (⟨s1, .colonEquals, e1⟩ :: (w3 ++ (rest))))).at? 0 k := fun p k => d1.single_at (K := w2 ++ (⟨s1, .colonEquals, e1⟩ :: (w3 ++ (rest)))) rfl p 0 k
  have t1_1 : ∀ p k, (PS.mk p (w1 ++ (w2 ++ (⟨s1, .colonEquals, e1⟩ :: (w3 ++ (rest)))))).among 1 k = (PS.mk p (w2 ++ (⟨s1, .colonEquals, e1⟩ :: (w3 ++ (rest))))).among 0 k := fun p k => d1.single_among (K := w2 ++ (⟨s1, .colonEquals, e1⟩ :: (w3 ++ (rest)))) rfl p 0 k
  have s1_2 : ∀ p k, (PS.mk p (w1 ++ (w2 ++ (⟨s1, .colonEquals, e1⟩ :: (w3 ++ (rest)))))).at? 2 k = (PS.mk p (w2 ++ (⟨s1, .colonEquals, e1⟩ :: (w3 ++ (rest))))).at? 1 k := fun p k => d1.single_at (K := w2 ++ (⟨s1, .colonEquals, e1⟩ :: (w3 ++ (rest)))) rfl p 1 k
  have t1_2 : ∀ p k, (PS.mk p (w1 ++ (w2 ++ (⟨s1, .colonEquals, e1⟩ :: (w3 ++ (rest)))))).among 2 k = (PS.mk p (w2 ++ (⟨s1, .colonEquals, e1⟩ :: (w3 ++ (rest))))).among 1 k := fun p k => d1.single_among (K := w2 ++ (⟨s1, .colonEquals, e1⟩ :: (w3 ++ (rest)))) rfl p 1 k
  have s1_3 : ∀ p k, (PS.mk p (w1 ++ (w2 ++ (⟨s1, .colonEquals, e1⟩ :: (w3 ++ (rest)))))).at? 3 k = (PS.mk p (w2 ++ (⟨s1, .colonEquals, e1⟩ :: (w3 ++ (rest))))).at? 2 k := fun p k => d1.single_at (K := w2 ++ (⟨s1, .colonEquals, e1⟩ :: (w3 ++ (rest)))) rfl p 2 k
  have t1_3 : ∀ p k, (PS.mk p (w1 ++ (w2 ++ (⟨s1, .colonEquals, e1⟩ :: (w3 ++ (rest)))))).among 3 k = (PS.mk p (w2 ++ (⟨s1, .colonEquals, e1⟩ :: (w3 ++ (rest))))).among 2 k := fun p k => d1.single_among (K := w2 ++ (⟨s1, .colonEquals, e1⟩ :: (w3 ++ (rest)))) rfl p 2 k
  have s1_4 : ∀ p k, (PS.mk p (w1 ++ (w2 ++ (⟨s1, .colonEquals, e1⟩ :: (w3 ++ (rest)))))).at? 4 k = (PS.mk p (w2 ++ (⟨s1, .colonEquals, e1⟩ :: (w3 ++ (rest))))).at? 3 k := fun p k => d1.single_at (K := w2 ++ (⟨s1, .colonEquals, e1⟩ :: (w3 ++ (rest)))) rfl p 3 k
  have t1_4 : ∀ p k, (PS.mk p (w1 ++ (w2 ++ (⟨s1, .colonEquals, e1⟩ :: (w3 ++ (rest)))))).among 4 k = (PS.mk p (w2 ++ (⟨s1, .colonEquals, e1⟩ :: (w3 ++ (rest))))).among 3 k := fun p k => d1.single_among (K := w2 ++ (⟨s1, .colonEquals, e1⟩ :: (w3 ++ (rest)))) rfl p 3 k
  have u1 := fun p => d1.at0_true (K := w2 ++ (⟨s1, .colonEquals, e1⟩ :: (w3 ++ (rest)))) (k := .identifier []) rfl rfl p
  have r2 : ∀ pp, parse fu (.plus .mapAccess) ⟨pp, w2 ++ (⟨s1, .colonEquals, e1⟩ :: (w3 ++ (rest)))⟩ = some (ks, ⟨stopFrom pp w2, ⟨s1, .colonEquals, e1⟩ :: (w3 ++ (rest))⟩) :=
    fun p => ih _ _ _ d2 rfl (by simp only [rank]; omega) p _ (.tok (by decide))
  have a2 := fun p k hk => d2.at0 (K := ⟨s1, .colonEquals, e1⟩ :: (w3 ++ (rest))) rfl p k hk
  have b2 := fun p L hk => d2.among0 (K := ⟨s1, .colonEquals, e1⟩ :: (w3 ++ (rest))) rfl p L hk
  have c2 := fun p L hk => d2.among0_false (K := ⟨s1, .colonEquals, e1⟩ :: (w3 ++ (rest))) rfl p L hk
  have g2 := fun K => d2.startOf_app (K := K) rfl
  have e2e := fun p => d2.stop_eq rfl p
  have u2 := fun p => d2.at0_true (K := ⟨s1, .colonEquals, e1⟩ :: (w3 ++ (rest))) (k := .openBracket) rfl rfl p
  have r3 : ∀ pp, parse fu .varId ⟨pp, w3 ++ (rest)⟩ = some (v, ⟨stopFrom pp w3, rest⟩) :=
    fun p => ih _ _ _ d3 rfl (by simp only [rank]; omega) p _ (hF.mono (by decide))
  have a3 := fun p k hk => d3.at0 (K := rest) rfl p k hk
  have b3 := fun p L hk => d3.among0 (K := rest) rfl p L hk
  have c3 := fun p L hk => d3.among0_false (K := rest) rfl p L hk
  have g3 := fun K => d3.startOf_app (K := K) rfl
  have e3e := fun p => d3.stop_eq rfl p
  have v3 := fun p => isVar_varId (K := rest) d3 p
  simp (decide := true) [pStatement, expect_cons, PS.wrap, mkW, startOf_cons, stopOf, stopFrom, stopFrom_append, hA, hB, r1, a1, b1, c1, g1, e1e, s1_1, t1_1, s1_2, t1_2, s1_3, t1_3, s1_4, t1_4, u1, r2, a2, b2, c2, g2, e2e, u2, r3, a3, b3, c3, g3, e3e, v3]

set_option autoImplicit true in
theorem c_stMapDelete (ih : Comp fu)
    (d1 : Derives .regularId w1 x)
    (d2 : Derives (.plus .mapAccess) w2 ks)
    (heq : w = ⟨s1, .delete, e1⟩ :: (w1 ++ w2))
    (hl : 32 * w.length + rank .statement ≤ fu + 1) (hF : Follow (bad .statement) rest) :
    pStatement (parse fu) ⟨po, w ++ rest⟩ = some (((.mapUpdateDelete x ks) : Val .statement), ⟨stopFrom po w, rest⟩) := by
  have l1 := d1.length_pos rfl
  have l2 := d2.length_pos rfl
  subst heq
  simp only [List.length_append, List.length_cons, List.length_nil, rank] at hl
  have hA := fun p k hk => hF.at p k hk
  have hB := fun p M hM => hF.among (M := M) p hM
  have r1 : ∀ pp, parse fu .regularId ⟨pp, w1 ++ (w2 ++ (rest))⟩ = some (x, ⟨stopFrom pp w1, w2 ++ (rest)⟩) :=
    fun p => ih _ _ _ d1 rfl (by simp only [rank]; omega) p _ (.app d2 (by decide) rfl)
  have a1 := fun p k hk => d1.at0 (K := w2 ++ (rest)) rfl p k hk
  have b1 := fun p L hk => d1.among0 (K := w2 ++ (rest)) rfl p L hk
  have c1 := fun p L hk => d1.among0_false (K := w2 ++ (rest)) rfl p L hk
  have g1 := fun K => d1.startOf_app (K := K) rfl
  have e1e := fun p => d1.stop_eq rfl p
  have s1_1 : ∀ p k, (PS.mk p (w1 ++ (w2 ++ (rest)))).at? 1 k = (PS.mk p (w2 ++ (rest))).at? 0 k := fun p k => d1.single_at (K := w2 ++ (rest)) rfl p 0 k
  have t1_1 : ∀ p k, (PS.mk p (w1 ++ (w2 ++ (rest)))).among 1 k = (PS.mk p (w2 ++ (rest))).among 0 k := fun p k => d1.single_among (K := w2 ++ (rest)) rfl p 0 k
  have s1_2 : ∀ p k, (PS.mk p (w1 ++ (w2 ++ (rest)))).at? 2 k = (PS.mk p (w2 ++ (rest))).at? 1 k := fun p k => d1.single_at (K := w2 ++ (rest)) rfl p 1 k
  have t1_2 : ∀ p k, (PS.mk p (w1 ++ (w2 ++ (rest)))).among 2 k = (PS.mk p (w2 ++ (rest))).among 1 k := fun p k => d1.single_among (K := w2 ++ (rest)) rfl p 1 k
  have s1_3 : ∀ p k, (PS.mk p (w1 ++ (w2 ++ (rest)))).at? 3 k = (PS.mk p (w2 ++ (rest))).at? 2 k := fun p k => d1.single_at (K := w2 ++ (rest)) rfl p 2 k
  have t1_3 : ∀ p k, (PS.mk p (w1 ++ (w2 ++ (rest)))).among 3 k = (PS.mk p (w2 ++ (rest))).among 2 k := fun p k => d1.single_among (K := w2 ++ (rest)) rfl p 2 k
  have s1_4 : ∀ p k, (PS.mk p (w1 ++ (w2 ++ (rest)))).at? 4 k = (PS.mk p (w2 ++ (rest))).at? 3 k := fun p k => d1.single_at (K := w2 ++ (rest)) rfl p 3 k
  have t1_4 : ∀ p k, (PS.mk p (w1 ++ (w2 ++ (rest)))).among 4 k = (PS.mk p (w2 ++ (rest))).among 3 k := fun p k => d1.single_among (K := w2 ++ (rest)) rfl p 3 k
  have u1 := fun p => d1.at0_true (K := w2 ++ (rest)) (k := .identifier []) rfl rfl p
  have r2 : ∀ pp, parse fu (.plus .mapAccess) ⟨pp, w2 ++ (rest)⟩ = some (ks, ⟨stopFrom pp w2, rest⟩) :=
    fun p => ih _ _ _ d2 rfl (by simp only [rank]; omega) p _ (hF.mono (by decide))
  have a2 := fun p k hk => d2.at0 (K := rest) rfl p k hk
  have b2 := fun p L hk => d2.among0 (K := rest) rfl p L hk
  have c2 := fun p L hk => d2.among0_false (K := rest) rfl p L hk
  have g2 := fun K => d2.startOf_app (K := K) rfl
  have e2e := fun p => d2.stop_eq rfl p
  have u2 := fun p => d2.at0_true (K := rest) (k := .openBracket) rfl rfl p
  simp (decide := true) [pStatement, expect_cons, PS.wrap, mkW, startOf_cons, stopOf, stopFrom, stopFrom_append, hA, hB, r1, a1, b1, c1, g1, e1e, s1_1, t1_1, s1_2, t1_2, s1_3, t1_3, s1_4, t1_4, u1, r2, a2, b2, c2, g2, e2e, u2]

set_option autoImplicit true in
theorem c_stAccept (ih : Comp fu)
    (heq : w = [⟨s1, .accept, e1⟩])
    (hl : 32 * w.length + rank .statement ≤ fu + 1) (hF : Follow (bad .statement) rest) :
    pStatement (parse fu) ⟨po, w ++ rest⟩ = some ((.accept : Val .statement), ⟨stopFrom po w, rest⟩) := by
  subst heq
  simp only [List.length_append, List.length_cons, List.length_nil, rank] at hl
  have hA := fun p k hk => hF.at p k hk
  have hB := fun p M hM => hF.among (M := M) p hM
  simp (decide := true) [pStatement, expect_cons, PS.wrap, mkW, startOf_cons, stopOf, stopFrom, stopFrom_append, hA, hB]

set_option autoImplicit true in
theorem c_stSend (ih : Comp fu)
    (d1 : Derives .varId w1 v)
    (heq : w = ⟨s1, .send, e1⟩ :: w1)
    (hl : 32 * w.length + rank .statement ≤ fu + 1) (hF : Follow (bad .statement) rest) :
    pStatement (parse fu) ⟨po, w ++ rest⟩ = some (((.send v) : Val .statement), ⟨stopFrom po w, rest⟩) := by
  have l1 := d1.length_pos rfl
  subst heq
  simp only [List.length_append, List.length_cons, List.length_nil, rank] at hl
  have hA := fun p k hk => hF.at p k hk
  have hB := fun p M hM => hF.among (M := M) p hM
  have r1 : ∀ pp, parse fu .varId ⟨pp, w1 ++ (rest)⟩ = some (v, ⟨stopFrom pp w1, rest⟩) :=
    fun p => ih _ _ _ d1 rfl (by simp only [rank]; omega) p _ (hF.mono (by decide))
  have a1 := fun p k hk => d1.at0 (K := rest) rfl p k hk
  have b1 := fun p L hk => d1.among0 (K := rest) rfl p L hk
  have c1 := fun p L hk => d1.among0_false (K := rest) rfl p L hk
  have g1 := fun K => d1.startOf_app (K := K) rfl
  have e1e := fun p => d1.stop_eq rfl p
  have v1 := fun p => isVar_varId (K := rest) d1 p
  simp (decide := true) [pStatement, expect_cons, PS.wrap, mkW, startOf_cons, stopOf, stopFrom, stopFrom_append, hA, hB, r1, a1, b1, c1, g1, e1e, v1]

set_option autoImplicit true in
theorem c_stEvent (ih : Comp fu)
    (d1 : Derives .varId w1 v)
    (heq : w = ⟨s1, .event, e1⟩ :: w1)
    (hl : 32 * w.length + rank .statement ≤ fu + 1) (hF : Follow (bad .statement) rest) :
    pStatement (parse fu) ⟨po, w ++ rest⟩ = some (((.createEvnt v) : Val .statement), ⟨stopFrom po w, rest⟩) := by
  have l1 := d1.length_pos rfl
  subst heq
  simp only [List.length_append, List.length_cons, List.length_nil, rank] at hl
  have hA := fun p k hk => hF.at p k hk
  have hB := fun p M hM => hF.among (M := M) p hM
  have r1 : ∀ pp, parse fu .varId ⟨pp, w1 ++ (rest)⟩ = some (v, ⟨stopFrom pp w1, rest⟩) :=
    fun p => ih _ _ _ d1 rfl (by simp only [rank]; omega) p _ (hF.mono (by decide))
  have a1 := fun p k hk => d1.at0 (K := rest) rfl p k hk
  have b1 := fun p L hk => d1.among0 (K := rest) rfl p L hk
  have c1 := fun p L hk => d1.among0_false (K := rest) rfl p L hk
  have g1 := fun K => d1.startOf_app (K := K) rfl
  have e1e := fun p => d1.stop_eq rfl p
  have v1 := fun p => isVar_varId (K := rest) d1 p
  simp (decide := true) [pStatement, expect_cons, PS.wrap, mkW, startOf_cons, stopOf, stopFrom, stopFrom_append, hA, hB, r1, a1, b1, c1, g1, e1e, v1]

set_option autoImplicit true in
theorem c_stThrow (ih : Comp fu)
    (d1 : Derives (.opt .varId) w1 v)
    (heq : w = ⟨s1, .throw, e1⟩ :: w1)
    (hl : 32 * w.length + rank .statement ≤ fu + 1) (hF : Follow (bad .statement) rest) :
    pStatement (parse fu) ⟨po, w ++ rest⟩ = some (((.throw v) : Val .statement), ⟨stopFrom po w, rest⟩) := by
  subst heq
  simp only [List.length_append, List.length_cons, List.length_nil, rank] at hl
  have hA := fun p k hk => hF.at p k hk
  have hB := fun p M hM => hF.among (M := M) p hM
  have r1 : ∀ pp, parse fu (.opt .varId) ⟨pp, w1 ++ (rest)⟩ = some (v, ⟨stopFrom pp w1, rest⟩) :=
    fun p => ih _ _ _ d1 rfl (by simp only [rank]; omega) p _ (hF.mono (by decide))
  simp (decide := true) [pStatement, expect_cons, PS.wrap, mkW, startOf_cons, stopOf, stopFrom, stopFrom_append, hA, hB, r1]

set_option autoImplicit true in
theorem c_stMatch (ih : Comp fu)
    (d1 : Derives .varId w1 x)
    (d2 : Derives (.plus .pmClause) w2 cs)
    (heq : w = ⟨s1, .match_, e1⟩ :: (w1 ++ ⟨s2, .with_, e2⟩ :: (w2 ++ [⟨s3, .end_, e3⟩])))
    (hl : 32 * w.length + rank .statement ≤ fu + 1) (hF : Follow (bad .statement) rest) :
    pStatement (parse fu) ⟨po, w ++ rest⟩ = some (((.matchStmt x cs) : Val .statement), ⟨stopFrom po w, rest⟩) := by
  have l1 := d1.length_pos rfl
  have l2 := d2.length_pos rfl
  subst heq
  simp only [List.length_append, List.length_cons, List.length_nil, rank] at hl
  have hA := fun p k hk => hF.at p k hk
  have hB := fun p M hM => hF.among (M := M) p hM
  have r1 : ∀ pp, parse fu .varId ⟨pp, w1 ++ (⟨s2, .with_, e2⟩ :: (w2 ++ (⟨s3, .end_, e3⟩ :: (rest))))⟩ = some (x, ⟨stopFrom pp w1, ⟨s2, .with_, e2⟩ :: (w2 ++ (⟨s3, .end_, e3⟩ :: (rest)))⟩) :=
    fun p => ih _ _ _ d1 rfl (by simp only [rank]; omega) p _ (.tok (by decide))
  have a1 := fun p k hk => d1.at0 (K := ⟨s2, .with_, e2⟩ :: (w2 ++ (⟨s3, .end_, e3⟩ :: (rest)))) rfl p k hk
  have b1 := fun p L hk => d1.among0 (K := ⟨s2, .with_, e2⟩ :: (w2 ++ (⟨s3, .end_, e3⟩ :: (rest)))) rfl p L hk
  have c1 := fun p L hk => d1.among0_false (K := ⟨s2, .with_, e2⟩ :: (w2 ++ (⟨s3, .end_, e3⟩ :: (rest)))) rfl p L hk
  have g1 := fun K => d1.startOf_app (K := K) rfl
  have e1e := fun p => d1.stop_eq rfl p
  have v1 := fun p => isVar_varId (K := ⟨s2, .with_, e2⟩ :: (w2 ++ (⟨s3, .end_, e3⟩ :: (rest)))) d1 p
  have r2 : ∀ pp, parse fu (.plus .pmClause) ⟨pp, w2 ++ (⟨s3, .end_, e3⟩ :: (rest))⟩ = some (cs, ⟨stopFrom pp w2, ⟨s3, .end_, e3⟩ :: (rest)⟩) :=
    fun p => ih _ _ _ d2 rfl (by simp only [rank]; omega) p _ (.tok (by decide))
  have a2 := fun p k hk => d2.at0 (K := ⟨s3, .end_, e3⟩ :: (rest)) rfl p k hk
  have b2 := fun p L hk => d2.among0 (K := ⟨s3, .end_, e3⟩ :: (rest)) rfl p L hk
  have c2 := fun p L hk => d2.among0_false (K := ⟨s3, .end_, e3⟩ :: (rest)) rfl p L hk
  have g2 := fun K => d2.startOf_app (K := K) rfl
  have e2e := fun p => d2.stop_eq rfl p
  simp (decide := true) [pStatement, expect_cons, PS.wrap, mkW, startOf_cons, stopOf, stopFrom, stopFrom_append, hA, hB, r1, a1, b1, c1, g1, e1e, v1, r2, a2, b2, c2, g2, e2e]

set_option autoImplicit true in
theorem c_stCall (ih : Comp fu)
    (d1 : Derives .componentId w1 c)
    (d2 : Derives (.star .varId) w2 args)
    (heq : w = w1 ++ w2)
    (hl : 32 * w.length + rank .statement ≤ fu + 1) (hF : Follow (bad .statement) rest) :
    pStatement (parse fu) ⟨po, w ++ rest⟩ = some (((.callProc c args) : Val .statement), ⟨stopFrom po w, rest⟩) := by
  have l1 := d1.length_pos rfl
  subst heq
  simp only [List.length_append, List.length_cons, List.length_nil, rank] at hl
  have hA := fun p k hk => hF.at p k hk
  have hB := fun p M hM => hF.among (M := M) p hM
  have r1 : ∀ pp, parse fu .componentId ⟨pp, w1 ++ (w2 ++ (rest))⟩ = some (c, ⟨stopFrom pp w1, w2 ++ (rest)⟩) :=
    fun p => ih _ _ _ d1 rfl (by simp only [rank]; omega) p _ (.app' d2 (by decide) (hF.mono (by decide)))
  have a1 := fun p k hk => d1.at0 (K := w2 ++ (rest)) rfl p k hk
  have b1 := fun p L hk => d1.among0 (K := w2 ++ (rest)) rfl p L hk
  have c1 := fun p L hk => d1.among0_false (K := w2 ++ (rest)) rfl p L hk
  have g1 := fun K => d1.startOf_app (K := K) rfl
  have e1e := fun p => d1.stop_eq rfl p
  have s1_1 : ∀ p k, (PS.mk p (w1 ++ (w2 ++ (rest)))).at? 1 k = (PS.mk p (w2 ++ (rest))).at? 0 k := fun p k => d1.single_at (K := w2 ++ (rest)) rfl p 0 k
  have t1_1 : ∀ p k, (PS.mk p (w1 ++ (w2 ++ (rest)))).among 1 k = (PS.mk p (w2 ++ (rest))).among 0 k := fun p k => d1.single_among (K := w2 ++ (rest)) rfl p 0 k
  have s1_2 : ∀ p k, (PS.mk p (w1 ++ (w2 ++ (rest)))).at? 2 k = (PS.mk p (w2 ++ (rest))).at? 1 k := fun p k => d1.single_at (K := w2 ++ (rest)) rfl p 1 k
  have t1_2 : ∀ p k, (PS.mk p (w1 ++ (w2 ++ (rest)))).among 2 k = (PS.mk p (w2 ++ (rest))).among 1 k := fun p k => d1.single_among (K := w2 ++ (rest)) rfl p 1 k
  have s1_3 : ∀ p k, (PS.mk p (w1 ++ (w2 ++ (rest)))).at? 3 k = (PS.mk p (w2 ++ (rest))).at? 2 k := fun p k => d1.single_at (K := w2 ++ (rest)) rfl p 2 k
  have t1_3 : ∀ p k, (PS.mk p (w1 ++ (w2 ++ (rest)))).among 3 k = (PS.mk p (w2 ++ (rest))).among 2 k := fun p k => d1.single_among (K := w2 ++ (rest)) rfl p 2 k
  have s1_4 : ∀ p k, (PS.mk p (w1 ++ (w2 ++ (rest)))).at? 4 k = (PS.mk p (w2 ++ (rest))).at? 3 k := fun p k => d1.single_at (K := w2 ++ (rest)) rfl p 3 k
  have t1_4 : ∀ p k, (PS.mk p (w1 ++ (w2 ++ (rest)))).among 4 k = (PS.mk p (w2 ++ (rest))).among 3 k := fun p k => d1.single_among (K := w2 ++ (rest)) rfl p 3 k
  have r2 : ∀ pp, parse fu (.star .varId) ⟨pp, w2 ++ (rest)⟩ = some (args, ⟨stopFrom pp w2, rest⟩) :=
    fun p => ih _ _ _ d2 rfl (by simp only [rank]; omega) p _ (hF.mono (by decide))
  have f2 := fun p k hk => Follow.at (L := [.colonEquals, .equals, .openBracket, .leftArrow]) (ts := w2 ++ (rest)) (.app' d2 (by decide) (hF.mono (by decide))) p k hk
  simp (decide := true) [pStatement, expect_cons, PS.wrap, mkW, startOf_cons, stopOf, stopFrom, stopFrom_append, hA, hB, r1, a1, b1, c1, g1, e1e, s1_1, t1_1, s1_2, t1_2, s1_3, t1_3, s1_4, t1_4, r2, f2]

set_option autoImplicit true in
theorem c_stForall (ih : Comp fu)
    (d1 : Derives .varId w1 x)
    (d2 : Derives .componentId w2 c)
    (heq : w = ⟨s1, .forall_, e1⟩ :: (w1 ++ w2))
    (hl : 32 * w.length + rank .statement ≤ fu + 1) (hF : Follow (bad .statement) rest) :
    pStatement (parse fu) ⟨po, w ++ rest⟩ = some (((.iterate x c) : Val .statement), ⟨stopFrom po w, rest⟩) := by
  have l1 := d1.length_pos rfl
  have l2 := d2.length_pos rfl
  subst heq
  simp only [List.length_append, List.length_cons, List.length_nil, rank] at hl
  have hA := fun p k hk => hF.at p k hk
  have hB := fun p M hM => hF.among (M := M) p hM
  have r1 : ∀ pp, parse fu .varId ⟨pp, w1 ++ (w2 ++ (rest))⟩ = some (x, ⟨stopFrom pp w1, w2 ++ (rest)⟩) :=
    fun p => ih _ _ _ d1 rfl (by simp only [rank]; omega) p _ (.app d2 (by decide) rfl)
  have a1 := fun p k hk => d1.at0 (K := w2 ++ (rest)) rfl p k hk
  have b1 := fun p L hk => d1.among0 (K := w2 ++ (rest)) rfl p L hk
  have c1 := fun p L hk => d1.among0_false (K := w2 ++ (rest)) rfl p L hk
  have g1 := fun K => d1.startOf_app (K := K) rfl
  have e1e := fun p => d1.stop_eq rfl p
  have v1 := fun p => isVar_varId (K := w2 ++ (rest)) d1 p
  have r2 : ∀ pp, parse fu .componentId ⟨pp, w2 ++ (rest)⟩ = some (c, ⟨stopFrom pp w2, rest⟩) :=
    fun p => ih _ _ _ d2 rfl (by simp only [rank]; omega) p _ (hF.mono (by decide))
  have a2 := fun p k hk => d2.at0 (K := rest) rfl p k hk
  have b2 := fun p L hk => d2.among0 (K := rest) rfl p L hk
  have c2 := fun p L hk => d2.among0_false (K := rest) rfl p L hk
  have g2 := fun K => d2.startOf_app (K := K) rfl
  have e2e := fun p => d2.stop_eq rfl p
  have s2_1 : ∀ p k, (PS.mk p (w2 ++ (rest))).at? 1 k = (PS.mk p (rest)).at? 0 k := fun p k => d2.single_at (K := rest) rfl p 0 k
  have t2_1 : ∀ p k, (PS.mk p (w2 ++ (rest))).among 1 k = (PS.mk p (rest)).among 0 k := fun p k => d2.single_among (K := rest) rfl p 0 k
  have s2_2 : ∀ p k, (PS.mk p (w2 ++ (rest))).at? 2 k = (PS.mk p (rest)).at? 1 k := fun p k => d2.single_at (K := rest) rfl p 1 k
  have t2_2 : ∀ p k, (PS.mk p (w2 ++ (rest))).among 2 k = (PS.mk p (rest)).among 1 k := fun p k => d2.single_among (K := rest) rfl p 1 k
  have s2_3 : ∀ p k, (PS.mk p (w2 ++ (rest))).at? 3 k = (PS.mk p (rest)).at? 2 k := fun p k => d2.single_at (K := rest) rfl p 2 k
  have t2_3 : ∀ p k, (PS.mk p (w2 ++ (rest))).among 3 k = (PS.mk p (rest)).among 2 k := fun p k => d2.single_among (K := rest) rfl p 2 k
  have s2_4 : ∀ p k, (PS.mk p (w2 ++ (rest))).at? 4 k = (PS.mk p (rest)).at? 3 k := fun p k => d2.single_at (K := rest) rfl p 3 k
  have t2_4 : ∀ p k, (PS.mk p (w2 ++ (rest))).among 4 k = (PS.mk p (rest)).among 3 k := fun p k => d2.single_among (K := rest) rfl p 3 k
  simp (decide := true) [pStatement, expect_cons, PS.wrap, mkW, startOf_cons, stopOf, stopFrom, stopFrom_append, hA, hB, r1, a1, b1, c1, g1, e1e, v1, r2, a2, b2, c2, g2, e2e, s2_1, t2_1, s2_2, t2_2, s2_3, t2_3, s2_4, t2_4]

set_option autoImplicit true in
theorem c_nextStatement (ih : Comp fu)
    (d1 : Derives .statement w1 st)
    (heq : w = ⟨s1, .semicolon, e1⟩ :: w1)
    (hl : 32 * w.length + rank .nextStatement ≤ fu + 1) (hF : Follow (bad .nextStatement) rest) :
    pNextStatement (parse fu) ⟨po, w ++ rest⟩ = some ((st : Val .nextStatement), ⟨stopFrom po w, rest⟩) := by
  have l1 := d1.length_pos rfl
  subst heq
  simp only [List.length_append, List.length_cons, List.length_nil, rank] at hl
  have hA := fun p k hk => hF.at p k hk
  have hB := fun p M hM => hF.among (M := M) p hM
  have r1 : ∀ pp, parse fu .statement ⟨pp, w1 ++ (rest)⟩ = some (st, ⟨stopFrom pp w1, rest⟩) :=
    fun p => ih _ _ _ d1 rfl (by simp only [rank]; omega) p _ (hF.mono (by decide))
  have a1 := fun p k hk => d1.at0 (K := rest) rfl p k hk
  have b1 := fun p L hk => d1.among0 (K := rest) rfl p L hk
  have c1 := fun p L hk => d1.among0_false (K := rest) rfl p L hk
  have g1 := fun K => d1.startOf_app (K := K) rfl
  have e1e := fun p => d1.stop_eq rfl p
  simp (decide := true) [pNextStatement, expect_cons, PS.wrap, mkW, startOf_cons, stopOf, stopFrom, stopFrom_append, hA, hB, r1, a1, b1, c1, g1, e1e]

set_option autoImplicit true in
theorem c_stmtBlock (ih : Comp fu)
    (d1 : Derives .statement w1 st)
    (d2 : Derives (.star .nextStatement) w2 sts)
    (heq : w = w1 ++ w2)
    (hl : 32 * w.length + rank .stmtBlock ≤ fu + 1) (hF : Follow (bad .stmtBlock) rest) :
    pStmtBlock (parse fu) ⟨po, w ++ rest⟩ = some (((mkW w (.mk (st :: sts))) : Val .stmtBlock), ⟨stopFrom po w, rest⟩) := by
  have l1 := d1.length_pos rfl
  subst heq
  simp only [List.length_append, List.length_cons, List.length_nil, rank] at hl
  have hA := fun p k hk => hF.at p k hk
  have hB := fun p M hM => hF.among (M := M) p hM
  have r1 : ∀ pp, parse fu .statement ⟨pp, w1 ++ (w2 ++ (rest))⟩ = some (st, ⟨stopFrom pp w1, w2 ++ (rest)⟩) :=
    fun p => ih _ _ _ d1 rfl (by simp only [rank]; omega) p _ (.app' d2 (by decide) (hF.mono (by decide)))
  have a1 := fun p k hk => d1.at0 (K := w2 ++ (rest)) rfl p k hk
  have b1 := fun p L hk => d1.among0 (K := w2 ++ (rest)) rfl p L hk
  have c1 := fun p L hk => d1.among0_false (K := w2 ++ (rest)) rfl p L hk
  have g1 := fun K => d1.startOf_app (K := K) rfl
  have e1e := fun p => d1.stop_eq rfl p
  have r2 : ∀ pp, parse fu (.star .nextStatement) ⟨pp, w2 ++ (rest)⟩ = some (sts, ⟨stopFrom pp w2, rest⟩) :=
    fun p => ih _ _ _ d2 rfl (by simp only [rank]; omega) p _ (hF.mono (by decide))
  simp (decide := true) [pStmtBlock, expect_cons, PS.wrap, mkW, startOf_cons, stopOf, stopFrom, stopFrom_append, hA, hB, r1, a1, b1, c1, g1, e1e, r2]

set_option autoImplicit true in
theorem c_bcFetchArgs (ih : Comp fu)
    (d1 : Derives (.plus .varId) w1 args)
    (heq : w = ⟨s1, .openParen, e1⟩ :: (w1 ++ [⟨s2, .closeParen, e2⟩]))
    (hl : 32 * w.length + rank .bcFetchArgs ≤ fu + 1) (hF : Follow (bad .bcFetchArgs) rest) :
    pBcFetchArgs (parse fu) ⟨po, w ++ rest⟩ = some ((⟨args⟩ : Val .bcFetchArgs), ⟨stopFrom po w, rest⟩) := by
  have l1 := d1.length_pos rfl
  subst heq
  simp only [List.length_append, List.length_cons, List.length_nil, rank] at hl
  have hA := fun p k hk => hF.at p k hk
  have hB := fun p M hM => hF.among (M := M) p hM
  have r1 : ∀ pp, parse fu (.plus .varId) ⟨pp, w1 ++ (⟨s2, .closeParen, e2⟩ :: (rest))⟩ = some (args, ⟨stopFrom pp w1, ⟨s2, .closeParen, e2⟩ :: (rest)⟩) :=
    fun p => ih _ _ _ d1 rfl (by simp only [rank]; omega) p _ (.tok (by decide))
  have a1 := fun p k hk => d1.at0 (K := ⟨s2, .closeParen, e2⟩ :: (rest)) rfl p k hk
  have b1 := fun p L hk => d1.among0 (K := ⟨s2, .closeParen, e2⟩ :: (rest)) rfl p L hk
  have c1 := fun p L hk => d1.among0_false (K := ⟨s2, .closeParen, e2⟩ :: (rest)) rfl p L hk
  have g1 := fun K => d1.startOf_app (K := K) rfl
  have e1e := fun p => d1.stop_eq rfl p
  simp (decide := true) [pBcFetchArgs, expect_cons, PS.wrap, mkW, startOf_cons, stopOf, stopFrom, stopFrom_append, hA, hB, r1, a1, b1, c1, g1, e1e]

set_option autoImplicit true in
theorem c_componentType (ih : Comp fu)
    (d1 : Derives .typeName w n)
    (hl : 32 * w.length + rank .componentId ≤ fu + 1) (hF : Follow (bad .componentId) rest) :
    pComponentId (parse fu) ⟨po, w ++ rest⟩ = some (((mkW w (.withTypeLikeName n)) : Val .componentId), ⟨stopFrom po w, rest⟩) := by
  have l1 := d1.length_pos rfl
  simp only [List.length_append, List.length_cons, List.length_nil, rank] at hl
  have hA := fun p k hk => hF.at p k hk
  have hB := fun p M hM => hF.among (M := M) p hM
  have r1 : ∀ pp, parse fu .typeName ⟨pp, w ++ (rest)⟩ = some (n, ⟨stopFrom pp w, rest⟩) :=
    fun p => ih _ _ _ d1 rfl (by simp only [rank]; omega) p _ (hF.mono (by decide))
  have a1 := fun p k hk => d1.at0 (K := rest) rfl p k hk
  have b1 := fun p L hk => d1.among0 (K := rest) rfl p L hk
  have c1 := fun p L hk => d1.among0_false (K := rest) rfl p L hk
  have g1 := fun K => d1.startOf_app (K := K) rfl
  have e1e := fun p => d1.stop_eq rfl p
  have s1_1 : ∀ p k, (PS.mk p (w ++ (rest))).at? 1 k = (PS.mk p (rest)).at? 0 k := fun p k => d1.single_at (K := rest) rfl p 0 k
  have t1_1 : ∀ p k, (PS.mk p (w ++ (rest))).among 1 k = (PS.mk p (rest)).among 0 k := fun p k => d1.single_among (K := rest) rfl p 0 k
  have s1_2 : ∀ p k, (PS.mk p (w ++ (rest))).at? 2 k = (PS.mk p (rest)).at? 1 k := fun p k => d1.single_at (K := rest) rfl p 1 k
  have t1_2 : ∀ p k, (PS.mk p (w ++ (rest))).among 2 k = (PS.mk p (rest)).among 1 k := fun p k => d1.single_among (K := rest) rfl p 1 k
  have s1_3 : ∀ p k, (PS.mk p (w ++ (rest))).at? 3 k = (PS.mk p (rest)).at? 2 k := fun p k => d1.single_at (K := rest) rfl p 2 k
  have t1_3 : ∀ p k, (PS.mk p (w ++ (rest))).among 3 k = (PS.mk p (rest)).among 2 k := fun p k => d1.single_among (K := rest) rfl p 2 k
  have s1_4 : ∀ p k, (PS.mk p (w ++ (rest))).at? 4 k = (PS.mk p (rest)).at? 3 k := fun p k => d1.single_at (K := rest) rfl p 3 k
  have t1_4 : ∀ p k, (PS.mk p (w ++ (rest))).among 4 k = (PS.mk p (rest)).among 3 k := fun p k => d1.single_among (K := rest) rfl p 3 k
  simp (decide := true) [pComponentId, expect_cons, PS.wrap, mkW, startOf_cons, stopOf, stopFrom, stopFrom_append, hA, hB, r1, a1, b1, c1, g1, e1e, s1_1, t1_1, s1_2, t1_2, s1_3, t1_3, s1_4, t1_4]

set_option autoImplicit true in
theorem c_componentRegular (ih : Comp fu)
    (d1 : Derives .regularId w x)
    (hl : 32 * w.length + rank .componentId ≤ fu + 1) (hF : Follow (bad .componentId) rest) :
    pComponentId (parse fu) ⟨po, w ++ rest⟩ = some (((mkW w (.withRegularId x)) : Val .componentId), ⟨stopFrom po w, rest⟩) := by
  have l1 := d1.length_pos rfl
  simp only [List.length_append, List.length_cons, List.length_nil, rank] at hl
  have hA := fun p k hk => hF.at p k hk
  have hB := fun p M hM => hF.among (M := M) p hM
  have r1 : ∀ pp, parse fu .regularId ⟨pp, w ++ (rest)⟩ = some (x, ⟨stopFrom pp w, rest⟩) :=
    fun p => ih _ _ _ d1 rfl (by simp only [rank]; omega) p _ (hF.mono (by decide))
  have a1 := fun p k hk => d1.at0 (K := rest) rfl p k hk
  have b1 := fun p L hk => d1.among0 (K := rest) rfl p L hk
  have c1 := fun p L hk => d1.among0_false (K := rest) rfl p L hk
  have g1 := fun K => d1.startOf_app (K := K) rfl
  have e1e := fun p => d1.stop_eq rfl p
  have s1_1 : ∀ p k, (PS.mk p (w ++ (rest))).at? 1 k = (PS.mk p (rest)).at? 0 k := fun p k => d1.single_at (K := rest) rfl p 0 k
  have t1_1 : ∀ p k, (PS.mk p (w ++ (rest))).among 1 k = (PS.mk p (rest)).among 0 k := fun p k => d1.single_among (K := rest) rfl p 0 k
  have s1_2 : ∀ p k, (PS.mk p (w ++ (rest))).at? 2 k = (PS.mk p (rest)).at? 1 k := fun p k => d1.single_at (K := rest) rfl p 1 k
  have t1_2 : ∀ p k, (PS.mk p (w ++ (rest))).among 2 k = (PS.mk p (rest)).among 1 k := fun p k => d1.single_among (K := rest) rfl p 1 k
  have s1_3 : ∀ p k, (PS.mk p (w ++ (rest))).at? 3 k = (PS.mk p (rest)).at? 2 k := fun p k => d1.single_at (K := rest) rfl p 2 k
  have t1_3 : ∀ p k, (PS.mk p (w ++ (rest))).among 3 k = (PS.mk p (rest)).among 2 k := fun p k => d1.single_among (K := rest) rfl p 2 k
  have s1_4 : ∀ p k, (PS.mk p (w ++ (rest))).at? 4 k = (PS.mk p (rest)).at? 3 k := fun p k => d1.single_at (K := rest) rfl p 3 k
  have t1_4 : ∀ p k, (PS.mk p (w ++ (rest))).among 4 k = (PS.mk p (rest)).among 3 k := fun p k => d1.single_among (K := rest) rfl p 3 k
  have u1 := fun p => d1.at0_true (K := rest) (k := .identifier []) rfl rfl p
  simp (decide := true) [pComponentId, expect_cons, PS.wrap, mkW, startOf_cons, stopOf, stopFrom, stopFrom_append, hA, hB, r1, a1, b1, c1, g1, e1e, s1_1, t1_1, s1_2, t1_2, s1_3, t1_3, s1_4, t1_4, u1]

set_option autoImplicit true in
theorem c_pmClause (ih : Comp fu)
    (d1 : Derives .pattern w1 p)
    (d2 : Derives (.opt .stmtBlock) w2 b)
    (heq : w = ⟨s1, .pipe, e1⟩ :: (w1 ++ ⟨s2, .doubleArrow, e2⟩ :: w2))
    (hl : 32 * w.length + rank .pmClause ≤ fu + 1) (hF : Follow (bad .pmClause) rest) :
    pPmClause (parse fu) ⟨po, w ++ rest⟩ = some (((mkW w (.mk p b)) : Val .pmClause), ⟨stopFrom po w, rest⟩) := by
  have l1 := d1.length_pos rfl
  subst heq
  simp only [List.length_append, List.length_cons, List.length_nil, rank] at hl
  have hA := fun p k hk => hF.at p k hk
  have hB := fun p M hM => hF.among (M := M) p hM
  have r1 : ∀ pp, parse fu .pattern ⟨pp, w1 ++ (⟨s2, .doubleArrow, e2⟩ :: (w2 ++ (rest)))⟩ = some (p, ⟨stopFrom pp w1, ⟨s2, .doubleArrow, e2⟩ :: (w2 ++ (rest))⟩) :=
    fun p => ih _ _ _ d1 rfl (by simp only [rank]; omega) p _ (.tok (by decide))
  have a1 := fun p k hk => d1.at0 (K := ⟨s2, .doubleArrow, e2⟩ :: (w2 ++ (rest))) rfl p k hk
  have b1 := fun p L hk => d1.among0 (K := ⟨s2, .doubleArrow, e2⟩ :: (w2 ++ (rest))) rfl p L hk
  have c1 := fun p L hk => d1.among0_false (K := ⟨s2, .doubleArrow, e2⟩ :: (w2 ++ (rest))) rfl p L hk
  have g1 := fun K => d1.startOf_app (K := K) rfl
  have e1e := fun p => d1.stop_eq rfl p
  have r2 : ∀ pp, parse fu (.opt .stmtBlock) ⟨pp, w2 ++ (rest)⟩ = some (b, ⟨stopFrom pp w2, rest⟩) :=
    fun p => ih _ _ _ d2 rfl (by simp only [rank]; omega) p _ (hF.mono (by decide))
  simp (decide := true) [pPmClause, expect_cons, PS.wrap, mkW, startOf_cons, stopOf, stopFrom, stopFrom_append, hA, hB, r1, a1, b1, c1, g1, e1e, r2]

set_option autoImplicit true in
theorem c_rfState (ih : Comp fu)
    (d1 : Derives .regularId w1 x)
    (d2 : Derives .regularId w2 a)
    (d3 : Derives .varId w3 v)
    (heq : w = w1 ++ ⟨s1, .leftArrow, e1⟩ :: ⟨s2, .ampersand, e2⟩ :: (w2 ++ ⟨s3, .dot, e3⟩ :: w3))
    (hl : 32 * w.length + rank .remoteFetch ≤ fu + 1) (hF : Follow (bad .remoteFetch) rest) :
    pRemoteFetch (parse fu) ⟨po, w ++ rest⟩ = some (((.readStateMutable x a v) : Val .remoteFetch), ⟨stopFrom po w, rest⟩) := by
  have l1 := d1.length_pos rfl
  have l2 := d2.length_pos rfl
  have l3 := d3.length_pos rfl
  subst heq
  simp only [List.length_append, List.length_cons, List.length_nil, rank] at hl
  have hA := fun p k hk => hF.at p k hk
  have hB := fun p M hM => hF.among (M := M) p hM
  have r1 : ∀ pp, parse fu .regularId ⟨pp, w1 ++ (⟨s1, .leftArrow, e1⟩ :: (⟨s2, .ampersand, e2⟩ :: (w2 ++ (⟨s3, .dot, e3⟩ :: (w3 ++ (rest))))))⟩ = some (x, ⟨stopFrom pp w1, ⟨s1, .leftArrow, e1⟩ :: (⟨s2, .ampersand, e2⟩ :: (w2 ++ (⟨s3, .dot, e3⟩ :: (w3 ++ (rest)))))⟩) :=
    fun p => ih _ _ _ d1 rfl (by simp only [rank]; omega) p _ (.tok (by decide))
  have a1 := fun p k hk => d1.at0 (K := ⟨s1, .leftArrow, e1⟩ :: (⟨s2, .ampersand, e2⟩ :: (w2 ++ (⟨s3, .dot, e3⟩ :: (w3 ++ (rest)))))) rfl p k hk
  have b1 := fun p L hk => d1.among0 (K := ⟨s1, .leftArrow, e1⟩ :: (⟨s2, .ampersand, e2⟩ :: (w2 ++ (⟨s3, .dot, e3⟩ :: (w3 ++ (rest)))))) rfl p L hk
  have c1 := fun p L hk => d1.among0_false (K := ⟨s1, .leftArrow, e1⟩ :: (⟨s2, .ampersand, e2⟩ :: (w2 ++ (⟨s3, .dot, e3⟩ :: (w3 ++ (rest)))))) rfl p L hk
  have g1 := fun K => d1.startOf_app (K := K) rfl
  have e1e := fun p => d1.stop_eq rfl p
  have s1_1 : ∀ p k, (PS.mk p (w1 ++ (⟨s1, .leftArrow, e1⟩ :: (⟨s2, .ampersand, e2⟩ :: (w2 ++ (⟨s3, .dot, e3⟩ :: (w3 ++ (rest)))))))).at? 1 k = (PS.mk p (⟨s1, .leftArrow, e1⟩ :: (⟨s2, .ampersand, e2⟩ :: (w2 ++ (⟨s3, .dot, e3⟩ :: (w3 ++ (rest))))))).at? 0 k := fun p k => d1.single_at (K := ⟨s1, .leftArrow, e1⟩ :: (⟨s2, .ampersand, e2⟩ :: (w2 ++ (⟨s3, .dot, e3⟩ :: (w3 ++ (rest)))))) rfl p 0 k
  have t1_1 : ∀ p k, (PS.mk p (w1 ++ (⟨s1, .leftArrow, e1⟩ :: (⟨s2, .ampersand, e2⟩ :: (w2 ++ (⟨s3, .dot, e3⟩ :: (w3 ++ (rest)))))))).among 1 k = (PS.mk p (⟨s1, .leftArrow, e1⟩ :: (⟨s2, .ampersand, e2⟩ :: (w2 ++ (⟨s3, .dot, e3⟩ :: (w3 ++ (rest))))))).among 0 k := fun p k => d1.single_among (K := ⟨s1, .leftArrow, e1⟩ :: (⟨s2, .ampersand, e2⟩ :: (w2 ++ (⟨s3, .dot, e3⟩ :: (w3 ++ (rest)))))) rfl p 0 k
  have s1_2 : ∀ p k, (PS.mk p (w1 ++ (⟨s1, .leftArrow, e1⟩ :: (⟨s2, .ampersand, e2⟩ :: (w2 ++ (⟨s3, .dot, e3⟩ :: (w3 ++ (rest)))))))).at? 2 k = (PS.mk p (⟨s1, .leftArrow, e1⟩ :: (⟨s2, .ampersand, e2⟩ :: (w2 ++ (⟨s3, .dot, e3⟩ :: (w3 ++ (rest))))))).at? 1 k := fun p k => d1.single_at (K := ⟨s1, .leftArrow, e1⟩ :: (⟨s2, .ampersand, e2⟩ :: (w2 ++ (⟨s3, .dot, e3⟩ :: (w3 ++ (rest)))))) rfl p 1 k
  have t1_2 : ∀ p k, (PS.mk p (w1 ++ (⟨s1, .leftArrow, e1⟩ :: (⟨s2, .ampersand, e2⟩ :: (w2 ++ (⟨s3, .dot, e3⟩ :: (w3 ++ (rest)))))))).among 2 k = (PS.mk p (⟨s1, .leftArrow, e1⟩ :: (⟨s2, .ampersand, e2⟩ :: (w2 ++ (⟨s3, .dot, e3⟩ :: (w3 ++ (rest))))))).among 1 k := fun p k => d1.single_among (K := ⟨s1, .leftArrow, e1⟩ :: (⟨s2, .ampersand, e2⟩ :: (w2 ++ (⟨s3, .dot, e3⟩ :: (w3 ++ (rest)))))) rfl p 1 k
  have s1_3 : ∀ p k, (PS.mk p (w1 ++ (⟨s1, .leftArrow, e1⟩ :: (⟨s2, .ampersand, e2⟩ :: (w2 ++ (⟨s3, .dot, e3⟩ :: (w3 ++ (rest)))))))).at? 3 k = (PS.mk p (⟨s1, .leftArrow, e1⟩ :: (⟨s2, .ampersand, e2⟩ :: (w2 ++ (⟨s3, .dot, e3⟩ :: (w3 ++ (rest))))))).at? 2 k := fun p k => d1.single_at (K := ⟨s1, .leftArrow, e1⟩ :: (⟨s2, .ampersand, e2⟩ :: (w2 ++ (⟨s3, .dot, e3⟩ :: (w3 ++ (rest)))))) rfl p 2 k
  have t1_3 : ∀ p k, (PS.mk p (w1 ++ (⟨s1, .leftArrow, e1⟩ :: (⟨s2, .ampersand, e2⟩ :: (w2 ++ (⟨s3, .dot, e3⟩ :: (w3 ++ (rest)))))))).among 3 k = (PS.mk p (⟨s1, .leftArrow, e1⟩ :: (⟨s2, .ampersand, e2⟩ :: (w2 ++ (⟨s3, .dot, e3⟩ :: (w3 ++ (rest))))))).among 2 k := fun p k => d1.single_among (K := ⟨s1, .leftArrow, e1⟩ :: (⟨s2, .ampersand, e2⟩ :: (w2 ++ (⟨s3, .dot, e3⟩ :: (w3 ++ (rest)))))) rfl p 2 k
  have s1_4 : ∀ p k, (PS.mk p (w1 ++ (⟨s1, .leftArrow, e1⟩ :: (⟨s2, .ampersand, e2⟩ :: (w2 ++ (⟨s3, .dot, e3⟩ :: (w3 ++ (rest)))))))).at? 4 k = (PS.mk p (⟨s1, .leftArrow, e1⟩ :: (⟨s2, .ampersand, e2⟩ :: (w2 ++ (⟨s3, .dot, e3⟩ :: (w3 ++ (rest))))))).at? 3 k := fun p k => d1.single_at (K := ⟨s1, .leftArrow, e1⟩ :: (⟨s2, .ampersand, e2⟩ :: (w2 ++ (⟨s3, .dot, e3⟩ :: (w3 ++ (rest)))))) rfl p 3 k
  have t1_4 : ∀ p k, (PS.mk p (w1 ++ (⟨s1, .leftArrow, e1⟩ :: (⟨s2, .ampersand, e2⟩ :: (w2 ++ (⟨s3, .dot, e3⟩ :: (w3 ++ (rest)))))))).among 4 k = (PS.mk p (⟨s1, .leftArrow, e1⟩ :: (⟨s2, .ampersand, e2⟩ :: (w2 ++ (⟨s3, .dot, e3⟩ :: (w3 ++ (rest))))))).among 3 k := fun p k => d1.single_among (K := ⟨s1, .leftArrow, e1⟩ :: (⟨s2, .ampersand, e2⟩ :: (w2 ++ (⟨s3, .dot, e3⟩ :: (w3 ++ (rest)))))) rfl p 3 k
  have u1 := fun p => d1.at0_true (K := ⟨s1, .leftArrow, e1⟩ :: (⟨s2, .ampersand, e2⟩ :: (w2 ++ (⟨s3, .dot, e3⟩ :: (w3 ++ (rest)))))) (k := .identifier []) rfl rfl p
  have r2 : ∀ pp, parse fu .regularId ⟨pp, w2 ++ (⟨s3, .dot, e3⟩ :: (w3 ++ (rest)))⟩ = some (a, ⟨stopFrom pp w2, ⟨s3, .dot, e3⟩ :: (w3 ++ (rest))⟩) :=
    fun p => ih _ _ _ d2 rfl (by simp only [rank]; omega) p _ (.tok (by decide))
  have a2 := fun p k hk => d2.at0 (K := ⟨s3, .dot, e3⟩ :: (w3 ++ (rest))) rfl p k hk
  have b2 := fun p L hk => d2.among0 (K := ⟨s3, .dot, e3⟩ :: (w3 ++ (rest))) rfl p L hk
  have c2 := fun p L hk => d2.among0_false (K := ⟨s3, .dot, e3⟩ :: (w3 ++ (rest))) rfl p L hk
  have g2 := fun K => d2.startOf_app (K := K) rfl
  have e2e := fun p => d2.stop_eq rfl p
  have s2_1 : ∀ p k, (PS.mk p (w2 ++ (⟨s3, .dot, e3⟩ :: (w3 ++ (rest))))).at? 1 k = (PS.mk p (⟨s3, .dot, e3⟩ :: (w3 ++ (rest)))).at? 0 k := fun p k => d2.single_at (K := ⟨s3, .dot, e3⟩ :: (w3 ++ (rest))) rfl p 0 k
  have t2_1 : ∀ p k, (PS.mk p (w2 ++ (⟨s3, .dot, e3⟩ :: (w3 ++ (rest))))).among 1 k = (PS.mk p (⟨s3, .dot, e3⟩ :: (w3 ++ (rest)))).among 0 k := fun p k => d2.single_among (K := ⟨s3, .dot, e3⟩ :: (w3 ++ (rest))) rfl p 0 k
  have s2_2 : ∀ p k, (PS.mk p (w2 ++ (⟨s3, .dot, e3⟩ :: (w3 ++ (rest))))).at? 2 k = (PS.mk p (⟨s3, .dot, e3⟩ :: (w3 ++ (rest)))).at? 1 k := fun p k => d2.single_at (K := ⟨s3, .dot, e3⟩ :: (w3 ++ (rest))) rfl p 1 k
  have t2_2 : ∀ p k, (PS.mk p (w2 ++ (⟨s3, .dot, e3⟩ :: (w3 ++ (rest))))).among 2 k = (PS.mk p (⟨s3, .dot, e3⟩ :: (w3 ++ (rest)))).among 1 k := fun p k => d2.single_among (K := ⟨s3, .dot, e3⟩ :: (w3 ++ (rest))) rfl p 1 k
  have s2_3 : ∀ p k, (PS.mk p (w2 ++ (⟨s3, .dot, e3⟩ :: (w3 ++ (rest))))).at? 3 k = (PS.mk p (⟨s3, .dot, e3⟩ :: (w3 ++ (rest)))).at? 2 k := fun p k => d2.single_at (K := ⟨s3, .dot, e3⟩ :: (w3 ++ (rest))) rfl p 2 k
  have t2_3 : ∀ p k, (PS.mk p (w2 ++ (⟨s3, .dot, e3⟩ :: (w3 ++ (rest))))).among 3 k = (PS.mk p (⟨s3, .dot, e3⟩ :: (w3 ++ (rest)))).among 2 k := fun p k => d2.single_among (K := ⟨s3, .dot, e3⟩ :: (w3 ++ (rest))) rfl p 2 k
  have s2_4 : ∀ p k, (PS.mk p (w2 ++ (⟨s3, .dot, e3⟩ :: (w3 ++ (rest))))).at? 4 k = (PS.mk p (⟨s3, .dot, e3⟩ :: (w3 ++ (rest)))).at? 3 k := fun p k => d2.single_at (K := ⟨s3, .dot, e3⟩ :: (w3 ++ (rest))) rfl p 3 k
  have t2_4 : ∀ p k, (PS.mk p (w2 ++ (⟨s3, .dot, e3⟩ :: (w3 ++ (rest))))).among 4 k = (PS.mk p (⟨s3, .dot, e3⟩ :: (w3 ++ (rest)))).among 3 k := fun p k => d2.single_among (K := ⟨s3, .dot, e3⟩ :: (w3 ++ (rest))) rfl p 3 k
  have u2 := fun p => d2.at0_true (K := ⟨s3, .dot, e3⟩ :: (w3 ++ (rest))) (k := .identifier []) rfl rfl p
  have r3 : ∀ pp, parse fu .varId ⟨pp, w3 ++ (rest)⟩ = some (v, ⟨stopFrom pp w3, rest⟩) :=
    fun p => ih _ _ _ d3 rfl (by simp only [rank]; omega) p _ (hF.mono (by decide))
  have a3 := fun p k hk => d3.at0 (K := rest) rfl p k hk
  have b3 := fun p L hk => d3.among0 (K := rest) rfl p L hk
  have c3 := fun p L hk => d3.among0_false (K := rest) rfl p L hk
  have g3 := fun K => d3.startOf_app (K := K) rfl
  have e3e := fun p => d3.stop_eq rfl p
  have v3 := fun p => isVar_varId (K := rest) d3 p
  rcases varId_shape (K := rest) d3 with x3 | x3 <;>
    simp (decide := true) [pRemoteFetch, expect_cons, PS.wrap, mkW, startOf_cons, stopOf, stopFrom, stopFrom_append, hA, hB, r1, a1, b1, c1, g1, e1e, s1_1, t1_1, s1_2, t1_2, s1_3, t1_3, s1_4, t1_4, u1, r2, a2, b2, c2, g2, e2e, s2_1, t2_1, s2_2, t2_2, s2_3, t2_3, s2_4, t2_4, u2, r3, a3, b3, c3, g3, e3e, v3, x3]

set_option autoImplicit true in
theorem c_rfSpecial (ih : Comp fu)
    (d1 : Derives .regularId w1 x)
    (d2 : Derives .specialId w2 a)
    (d3 : Derives .specialId w3 m)
    (heq : w = w1 ++ ⟨s1, .leftArrow, e1⟩ :: ⟨s2, .ampersand, e2⟩ :: (w2 ++ ⟨s3, .dot, e3⟩ :: w3))
    (hl : 32 * w.length + rank .remoteFetch ≤ fu + 1) (hF : Follow (bad .remoteFetch) rest) :
    pRemoteFetch (parse fu) ⟨po, w ++ rest⟩ = some (((.readStateMutableSpecialId x a m) : Val .remoteFetch), ⟨stopFrom po w, rest⟩) := by
  have l1 := d1.length_pos rfl
  have l2 := d2.length_pos rfl
  have l3 := d3.length_pos rfl
  subst heq
  simp only [List.length_append, List.length_cons, List.length_nil, rank] at hl
  have hA := fun p k hk => hF.at p k hk
  have hB := fun p M hM => hF.among (M := M) p hM
  have r1 : ∀ pp, parse fu .regularId ⟨pp, w1 ++ (⟨s1, .leftArrow, e1⟩ :: (⟨s2, .ampersand, e2⟩ :: (w2 ++ (⟨s3, .dot, e3⟩ :: (w3 ++ (rest))))))⟩ = some (x, ⟨stopFrom pp w1, ⟨s1, .leftArrow, e1⟩ :: (⟨s2, .ampersand, e2⟩ :: (w2 ++ (⟨s3, .dot, e3⟩ :: (w3 ++ (rest)))))⟩) :=
    fun p => ih _ _ _ d1 rfl (by simp only [rank]; omega) p _ (.tok (by decide))
  have a1 := fun p k hk => d1.at0 (K := ⟨s1, .leftArrow, e1⟩ :: (⟨s2, .ampersand, e2⟩ :: (w2 ++ (⟨s3, .dot, e3⟩ :: (w3 ++ (rest)))))) rfl p k hk
  have b1 := fun p L hk => d1.among0 (K := ⟨s1, .leftArrow, e1⟩ :: (⟨s2, .ampersand, e2⟩ :: (w2 ++ (⟨s3, .dot, e3⟩ :: (w3 ++ (rest)))))) rfl p L hk
  have c1 := fun p L hk => d1.among0_false (K := ⟨s1, .leftArrow, e1⟩ :: (⟨s2, .ampersand, e2⟩ :: (w2 ++ (⟨s3, .dot, e3⟩ :: (w3 ++ (rest)))))) rfl p L hk
  have g1 := fun K => d1.startOf_app (K := K) rfl
  have e1e := fun p => d1.stop_eq rfl p
  have s1_1 : ∀ p k, (PS.mk p (w1 ++ (⟨s1, .leftArrow, e1⟩ :: (⟨s2, .ampersand, e2⟩ :: (w2 ++ (⟨s3, .dot, e3⟩ :: (w3 ++ (rest)))))))).at? 1 k = (PS.mk p (⟨s1, .leftArrow, e1⟩ :: (⟨s2, .ampersand, e2⟩ :: (w2 ++ (⟨s3, .dot, e3⟩ :: (w3 ++ (rest))))))).at? 0 k := fun p k => d1.single_at (K := ⟨s1, .leftArrow, e1⟩ :: (⟨s2, .ampersand, e2⟩ :: (w2 ++ (⟨s3, .dot, e3⟩ :: (w3 ++ (rest)))))) rfl p 0 k
  have t1_1 : ∀ p k, (PS.mk p (w1 ++ (⟨s1, .leftArrow, e1⟩ :: (⟨s2, .ampersand, e2⟩ :: (w2 ++ (⟨s3, .dot, e3⟩ :: (w3 ++ (rest)))))))).among 1 k = (PS.mk p (⟨s1, .leftArrow, e1⟩ :: (⟨s2, .ampersand, e2⟩ :: (w2 ++ (⟨s3, .dot, e3⟩ :: (w3 ++ (rest))))))).among 0 k := fun p k => d1.single_among (K := ⟨s1, .leftArrow, e1⟩ :: (⟨s2, .ampersand, e2⟩ :: (w2 ++ (⟨s3, .dot, e3⟩ :: (w3 ++ (rest)))))) rfl p 0 k
  have s1_2 : ∀ p k, (PS.mk p (w1 ++ (⟨s1, .leftArrow, e1⟩ :: (⟨s2, .ampersand, e2⟩ :: (w2 ++ (⟨s3, .dot, e3⟩ :: (w3 ++ (rest)))))))).at? 2 k = (PS.mk p (⟨s1, .leftArrow, e1⟩ :: (⟨s2, .ampersand, e2⟩ :: (w2 ++ (⟨s3, .dot, e3⟩ :: (w3 ++ (rest))))))).at? 1 k := fun p k => d1.single_at (K := ⟨s1, .leftArrow, e1⟩ :: (⟨s2, .ampersand, e2⟩ :: (w2 ++ (⟨s3, .dot, e3⟩ :: (w3 ++ (rest)))))) rfl p 1 k
  have t1_2 : ∀ p k, (PS.mk p (w1 ++ (⟨s1, .leftArrow, e1⟩ :: (⟨s2, .ampersand, e2⟩ :: (w2 ++ (⟨s3, .dot, e3⟩ :: (w3 ++ (rest)))))))).among 2 k = (PS.mk p (⟨s1, .leftArrow, e1⟩ :: (⟨s2, .ampersand, e2⟩ :: (w2 ++ (⟨s3, .dot, e3⟩ :: (w3 ++ (rest))))))).among 1 k := fun p k => d1.single_among (K := ⟨s1, .leftArrow, e1⟩ :: (⟨s2, .ampersand, e2⟩ :: (w2 ++ (⟨s3, .dot, e3⟩ :: (w3 ++ (rest)))))) rfl p 1 k
  have s1_3 : ∀ p k, (PS.mk p (w1 ++ (⟨s1, .leftArrow, e1⟩ :: (⟨s2, .ampersand, e2⟩ :: (w2 ++ (⟨s3, .dot, e3⟩ :: (w3 ++ (rest)))))))).at? 3 k = (PS.mk p (⟨s1, .leftArrow, e1⟩ :: (⟨s2, .ampersand, e2⟩ :: (w2 ++ (⟨s3, .dot, e3⟩ :: (w3 ++ (rest))))))).at? 2 k := fun p k => d1.single_at (K := ⟨s1, .leftArrow, e1⟩ :: (⟨s2, .ampersand, e2⟩ :: (w2 ++ (⟨s3, .dot, e3⟩ :: (w3 ++ (rest)))))) rfl p 2 k
  have t1_3 : ∀ p k, (PS.mk p (w1 ++ (⟨s1, .leftArrow, e1⟩ :: (⟨s2, .ampersand, e2⟩ :: (w2 ++ (⟨s3, .dot, e3⟩ :: (w3 ++ (rest)))))))).among 3 k = (PS.mk p (⟨s1, .leftArrow, e1⟩ :: (⟨s2, .ampersand, e2⟩ :: (w2 ++ (⟨s3, .dot, e3⟩ :: (w3 ++ (rest))))))).among 2 k := fun p k => d1.single_among (K := ⟨s1, .leftArrow, e1⟩ :: (⟨s2, .ampersand, e2⟩ :: (w2 ++ (⟨s3, .dot, e3⟩ :: (w3 ++ (rest)))))) rfl p 2 k
  have s1_4 : ∀ p k, (PS.mk p (w1 ++ (⟨s1, .leftArrow, e1⟩ :: (⟨s2, .ampersand, e2⟩ :: (w2 ++ (⟨s3, .dot, e3⟩ :: (w3 ++ (rest)))))))).at? 4 k = (PS.mk p (⟨s1, .leftArrow, e1⟩ :: (⟨s2, .ampersand, e2⟩ :: (w2 ++ (⟨s3, .dot, e3⟩ :: (w3 ++ (rest))))))).at? 3 k := fun p k => d1.single_at (K := ⟨s1, .leftArrow, e1⟩ :: (⟨s2, .ampersand, e2⟩ :: (w2 ++ (⟨s3, .dot, e3⟩ :: (w3 ++ (rest)))))) rfl p 3 k
  have t1_4 : ∀ p k, (PS.mk p (w1 ++ (⟨s1, .leftArrow, e1⟩ :: (⟨s2, .ampersand, e2⟩ :: (w2 ++ (⟨s3, .dot, e3⟩ :: (w3 ++ (rest)))))))).among 4 k = (PS.mk p (⟨s1, .leftArrow, e1⟩ :: (⟨s2, .ampersand, e2⟩ :: (w2 ++ (⟨s3, .dot, e3⟩ :: (w3 ++ (rest))))))).among 3 k := fun p k => d1.single_among (K := ⟨s1, .leftArrow, e1⟩ :: (⟨s2, .ampersand, e2⟩ :: (w2 ++ (⟨s3, .dot, e3⟩ :: (w3 ++ (rest)))))) rfl p 3 k
  have u1 := fun p => d1.at0_true (K := ⟨s1, .leftArrow, e1⟩ :: (⟨s2, .ampersand, e2⟩ :: (w2 ++ (⟨s3, .dot, e3⟩ :: (w3 ++ (rest)))))) (k := .identifier []) rfl rfl p
  have r2 : ∀ pp, parse fu .specialId ⟨pp, w2 ++ (⟨s3, .dot, e3⟩ :: (w3 ++ (rest)))⟩ = some (a, ⟨stopFrom pp w2, ⟨s3, .dot, e3⟩ :: (w3 ++ (rest))⟩) :=
    fun p => ih _ _ _ d2 rfl (by simp only [rank]; omega) p _ (.tok (by decide))
  have a2 := fun p k hk => d2.at0 (K := ⟨s3, .dot, e3⟩ :: (w3 ++ (rest))) rfl p k hk
  have b2 := fun p L hk => d2.among0 (K := ⟨s3, .dot, e3⟩ :: (w3 ++ (rest))) rfl p L hk
  have c2 := fun p L hk => d2.among0_false (K := ⟨s3, .dot, e3⟩ :: (w3 ++ (rest))) rfl p L hk
  have g2 := fun K => d2.startOf_app (K := K) rfl
  have e2e := fun p => d2.stop_eq rfl p
  have s2_1 : ∀ p k, (PS.mk p (w2 ++ (⟨s3, .dot, e3⟩ :: (w3 ++ (rest))))).at? 1 k = (PS.mk p (⟨s3, .dot, e3⟩ :: (w3 ++ (rest)))).at? 0 k := fun p k => d2.single_at (K := ⟨s3, .dot, e3⟩ :: (w3 ++ (rest))) rfl p 0 k
  have t2_1 : ∀ p k, (PS.mk p (w2 ++ (⟨s3, .dot, e3⟩ :: (w3 ++ (rest))))).among 1 k = (PS.mk p (⟨s3, .dot, e3⟩ :: (w3 ++ (rest)))).among 0 k := fun p k => d2.single_among (K := ⟨s3, .dot, e3⟩ :: (w3 ++ (rest))) rfl p 0 k
  have s2_2 : ∀ p k, (PS.mk p (w2 ++ (⟨s3, .dot, e3⟩ :: (w3 ++ (rest))))).at? 2 k = (PS.mk p (⟨s3, .dot, e3⟩ :: (w3 ++ (rest)))).at? 1 k := fun p k => d2.single_at (K := ⟨s3, .dot, e3⟩ :: (w3 ++ (rest))) rfl p 1 k
  have t2_2 : ∀ p k, (PS.mk p (w2 ++ (⟨s3, .dot, e3⟩ :: (w3 ++ (rest))))).among 2 k = (PS.mk p (⟨s3, .dot, e3⟩ :: (w3 ++ (rest)))).among 1 k := fun p k => d2.single_among (K := ⟨s3, .dot, e3⟩ :: (w3 ++ (rest))) rfl p 1 k
  have s2_3 : ∀ p k, (PS.mk p (w2 ++ (⟨s3, .dot, e3⟩ :: (w3 ++ (rest))))).at? 3 k = (PS.mk p (⟨s3, .dot, e3⟩ :: (w3 ++ (rest)))).at? 2 k := fun p k => d2.single_at (K := ⟨s3, .dot, e3⟩ :: (w3 ++ (rest))) rfl p 2 k
  have t2_3 : ∀ p k, (PS.mk p (w2 ++ (⟨s3, .dot, e3⟩ :: (w3 ++ (rest))))).among 3 k = (PS.mk p (⟨s3, .dot, e3⟩ :: (w3 ++ (rest)))).among 2 k := fun p k => d2.single_among (K := ⟨s3, .dot, e3⟩ :: (w3 ++ (rest))) rfl p 2 k
  have s2_4 : ∀ p k, (PS.mk p (w2 ++ (⟨s3, .dot, e3⟩ :: (w3 ++ (rest))))).at? 4 k = (PS.mk p (⟨s3, .dot, e3⟩ :: (w3 ++ (rest)))).at? 3 k := fun p k => d2.single_at (K := ⟨s3, .dot, e3⟩ :: (w3 ++ (rest))) rfl p 3 k
  have t2_4 : ∀ p k, (PS.mk p (w2 ++ (⟨s3, .dot, e3⟩ :: (w3 ++ (rest))))).among 4 k = (PS.mk p (⟨s3, .dot, e3⟩ :: (w3 ++ (rest)))).among 3 k := fun p k => d2.single_among (K := ⟨s3, .dot, e3⟩ :: (w3 ++ (rest))) rfl p 3 k
  have u2 := fun p => d2.at0_true (K := ⟨s3, .dot, e3⟩ :: (w3 ++ (rest))) (k := .specialIdentifier []) rfl rfl p
  have r3 : ∀ pp, parse fu .specialId ⟨pp, w3 ++ (rest)⟩ = some (m, ⟨stopFrom pp w3, rest⟩) :=
    fun p => ih _ _ _ d3 rfl (by simp only [rank]; omega) p _ (hF.mono (by decide))
  have a3 := fun p k hk => d3.at0 (K := rest) rfl p k hk
  have b3 := fun p L hk => d3.among0 (K := rest) rfl p L hk
  have c3 := fun p L hk => d3.among0_false (K := rest) rfl p L hk
  have g3 := fun K => d3.startOf_app (K := K) rfl
  have e3e := fun p => d3.stop_eq rfl p
  have s3_1 : ∀ p k, (PS.mk p (w3 ++ (rest))).at? 1 k = (PS.mk p (rest)).at? 0 k := fun p k => d3.single_at (K := rest) rfl p 0 k
  have t3_1 : ∀ p k, (PS.mk p (w3 ++ (rest))).among 1 k = (PS.mk p (rest)).among 0 k := fun p k => d3.single_among (K := rest) rfl p 0 k
  have s3_2 : ∀ p k, (PS.mk p (w3 ++ (rest))).at? 2 k = (PS.mk p (rest)).at? 1 k := fun p k => d3.single_at (K := rest) rfl p 1 k
  have t3_2 : ∀ p k, (PS.mk p (w3 ++ (rest))).among 2 k = (PS.mk p (rest)).among 1 k := fun p k => d3.single_among (K := rest) rfl p 1 k
  have s3_3 : ∀ p k, (PS.mk p (w3 ++ (rest))).at? 3 k = (PS.mk p (rest)).at? 2 k := fun p k => d3.single_at (K := rest) rfl p 2 k
  have t3_3 : ∀ p k, (PS.mk p (w3 ++ (rest))).among 3 k = (PS.mk p (rest)).among 2 k := fun p k => d3.single_among (K := rest) rfl p 2 k
  have s3_4 : ∀ p k, (PS.mk p (w3 ++ (rest))).at? 4 k = (PS.mk p (rest)).at? 3 k := fun p k => d3.single_at (K := rest) rfl p 3 k
  have t3_4 : ∀ p k, (PS.mk p (w3 ++ (rest))).among 4 k = (PS.mk p (rest)).among 3 k := fun p k => d3.single_among (K := rest) rfl p 3 k
  have u3 := fun p => d3.at0_true (K := rest) (k := .specialIdentifier []) rfl rfl p
  simp (decide := true) [pRemoteFetch, expect_cons, PS.wrap, mkW, startOf_cons, stopOf, stopFrom, stopFrom_append, hA, hB, r1, a1, b1, c1, g1, e1e, s1_1, t1_1, s1_2, t1_2, s1_3, t1_3, s1_4, t1_4, u1, r2, a2, b2, c2, g2, e2e, s2_1, t2_1, s2_2, t2_2, s2_3, t2_3, s2_4, t2_4, u2, r3, a3, b3, c3, g3, e3e, s3_1, t3_1, s3_2, t3_2, s3_3, t3_3, s3_4, t3_4, u3]

set_option autoImplicit true in
theorem c_rfMap (ih : Comp fu)
    (d1 : Derives .regularId w1 x)
    (d2 : Derives .regularId w2 a)
    (d3 : Derives .regularId w3 m)
    (d4 : Derives (.plus .mapAccess) w4 ks)
    (heq : w = w1 ++ ⟨s1, .leftArrow, e1⟩ :: ⟨s2, .ampersand, e2⟩ :: (w2 ++ ⟨s3, .dot, e3⟩ :: (w3 ++ w4)))
    (hl : 32 * w.length + rank .remoteFetch ≤ fu + 1) (hF : Follow (bad .remoteFetch) rest) :
    pRemoteFetch (parse fu) ⟨po, w ++ rest⟩ = some (((.readStateMutableMapAccess x a m ks) : Val .remoteFetch), ⟨stopFrom po w, rest⟩) := by
  have l1 := d1.length_pos rfl
  have l2 := d2.length_pos rfl
  have l3 := d3.length_pos rfl
  have l4 := d4.length_pos rfl
  subst heq
  simp only [List.length_append, List.length_cons, List.length_nil, rank] at hl
  have hA := fun p k hk => hF.at p k hk
  have hB := fun p M hM => hF.among (M := M) p hM
  have r1 : ∀ pp, parse fu .regularId ⟨pp, w1 ++ (⟨s1, .leftArrow, e1⟩ :: (⟨s2, .ampersand, e2⟩ :: (w2 ++ (⟨s3, .dot, e3⟩ :: (w3 ++ (w4 ++ (rest)))))))⟩ = some (x, ⟨stopFrom pp w1, ⟨s1, .leftArrow, e1⟩ :: (⟨s2, .ampersand, e2⟩ :: (w2 ++ (⟨s3, .dot, e3⟩ :: (w3 ++ (w4 ++ (rest))))))⟩) :=
    fun p => ih _ _ _ d1 rfl (by simp only [rank]; omega) p _ (.tok (by decide))
  have a1 := fun p k hk => d1.at0 (K := ⟨s1, .leftArrow, e1⟩ :: (⟨s2, .ampersand, e2⟩ :: (w2 ++ (⟨s3, .dot, e3⟩ :: (w3 ++ (w4 ++ (rest))))))) rfl p k hk
  have b1 := fun p L hk => d1.among0 (K := ⟨s1, .leftArrow, e1⟩ :: (⟨s2, .ampersand, e2⟩ :: (w2 ++ (⟨s3, .dot, e3⟩ :: (w3 ++ (w4 ++ (rest))))))) rfl p L hk
  have c1 := fun p L hk => d1.among0_false (K := ⟨s1, .leftArrow, e1⟩ :: (⟨s2, .ampersand, e2⟩ :: (w2 ++ (⟨s3, .dot, e3⟩ :: (w3 ++ (w4 ++ (rest))))))) rfl p L hk
  have g1 := fun K => d1.startOf_app (K := K) rfl
  have e1e := fun p => d1.stop_eq rfl p
  have s1_1 : ∀ p k, (PS.mk p (w1 ++ (⟨s1, .leftArrow, e1⟩ :: (⟨s2, .ampersand, e2⟩ :: (w2 ++ (⟨s3, .dot, e3⟩ :: (w3 ++ (w4 ++ (rest))))))))).at? 1 k = (PS.mk p (⟨s1, .leftArrow, e1⟩ :: (⟨s2, .ampersand, e2⟩ :: (w2 ++ (⟨s3, .dot, e3⟩ :: (w3 ++ (w4 ++ (rest)))))))).at? 0 k := fun p k => d1.single_at (K := ⟨s1, .leftArrow, e1⟩ :: (⟨s2, .ampersand, e2⟩ :: (w2 ++ (⟨s3, .dot, e3⟩ :: (w3 ++ (w4 ++ (rest))))))) rfl p 0 k
  have t1_1 : ∀ p k, (PS.mk p (w1 ++ (⟨s1, .leftArrow, e1⟩ :: (⟨s2, .ampersand, e2⟩ :: (w2 ++ (⟨s3, .dot, e3⟩ :: (w3 ++ (w4 ++ (rest))))))))).among 1 k = (PS.mk p (⟨s1, .leftArrow, e1⟩ :: (⟨s2, .ampersand, e2⟩ :: (w2 ++ (⟨s3, .dot, e3⟩ :: (w3 ++ (w4 ++ (rest)))))))).among 0 k := fun p k => d1.single_among (K := ⟨s1, .leftArrow, e1⟩ :: (⟨s2, .ampersand, e2⟩ :: (w2 ++ (⟨s3, .dot, e3⟩ :: (w3 ++ (w4 ++ (rest))))))) rfl p 0 k
  have s1_2 : ∀ p k, (PS.mk p (w1 ++ (⟨s1, .leftArrow, e1⟩ :: (⟨s2, .ampersand, e2⟩ :: (w2 ++ (⟨s3, .dot, e3⟩ :: (w3 ++ (w4 ++ (rest))))))))).at? 2 k = (PS.mk p (⟨s1, .leftArrow, e1⟩ :: (⟨s2, .ampersand, e2⟩ :: (w2 ++ (⟨s3, .dot, e3⟩ :: (w3 ++ (w4 ++ (rest)))))))).at? 1 k := fun p k => d1.single_at (K := ⟨s1, .leftArrow, e1⟩ :: (⟨s2, .ampersand, e2⟩ :: (w2 ++ (⟨s3, .dot, e3⟩ :: (w3 ++ (w4 ++ (rest))))))) rfl p 1 k
  have t1_2 : ∀ p k, (PS.mk p (w1 ++ (⟨s1, .leftArrow, e1⟩ :: (⟨s2, .ampersand, e2⟩ :: (w2 ++ (⟨s3, .dot, e3⟩ :: (w3 ++ (w4 ++ (rest))))))))).among 2 k = (PS.mk p (⟨s1, .leftArrow, e1⟩ :: (⟨s2, .ampersand, e2⟩ :: (w2 ++ (⟨s3, .dot, e3⟩ :: (w3 ++ (w4 ++ (rest)))))))).among 1 k := fun p k => d1.single_among (K := ⟨s1, .leftArrow, e1⟩ :: (⟨s2, .ampersand, e2⟩ :: (w2 ++ (⟨s3, .dot, e3⟩ :: (w3 ++ (w4 ++ (rest))))))) rfl p 1 k
  have s1_3 : ∀ p k, (PS.mk p (w1 ++ (⟨s1, .leftArrow, e1⟩ :: (⟨s2, .ampersand, e2⟩ :: (w2 ++ (⟨s3, .dot, e3⟩ :: (w3 ++ (w4 ++ (rest))))))))).at? 3 k = (PS.mk p (⟨s1, .leftArrow, e1⟩ :: (⟨s2, .ampersand, e2⟩ :: (w2 ++ (⟨s3, .dot, e3⟩ :: (w3 ++ (w4 ++ (rest)))))))).at? 2 k := fun p k => d1.single_at (K := ⟨s1, .leftArrow, e1⟩ :: (⟨s2, .ampersand, e2⟩ :: (w2 ++ (⟨s3, .dot, e3⟩ :: (w3 ++ (w4 ++ (rest))))))) rfl p 2 k
  have t1_3 : ∀ p k, (PS.mk p (w1 ++ (⟨s1, .leftArrow, e1⟩ :: (⟨s2, .ampersand, e2⟩ :: (w2 ++ (⟨s3, .dot, e3⟩ :: (w3 ++ (w4 ++ (rest))))))))).among 3 k = (PS.mk p (⟨s1, .leftArrow, e1⟩ :: (⟨s2, .ampersand, e2⟩ :: (w2 ++ (⟨s3, .dot, e3⟩ :: (w3 ++ (w4 ++ (rest)))))))).among 2 k := fun p k => d1.single_among (K := ⟨s1, .leftArrow, e1⟩ :: (⟨s2, .ampersand, e2⟩ :: (w2 ++ (⟨s3, .dot, e3⟩ :: (w3 ++ (w4 ++ (rest))))))) rfl p 2 k
  have s1_4 : ∀ p k, (PS.mk p (w1 ++ (⟨s1, .leftArrow, e1⟩ :: (⟨s2, .ampersand, e2⟩ :: (w2 ++ (⟨s3, .dot, e3⟩ :: (w3 ++ (w4 ++ (rest))))))))).at? 4 k = (PS.mk p (⟨s1, .leftArrow, e1⟩ :: (⟨s2, .ampersand, e2⟩ :: (w2 ++ (⟨s3, .dot, e3⟩ :: (w3 ++ (w4 ++ (rest)))))))).at? 3 k := fun p k => d1.single_at (K := ⟨s1, .leftArrow, e1⟩ :: (⟨s2, .ampersand, e2⟩ :: (w2 ++ (⟨s3, .dot, e3⟩ :: (w3 ++ (w4 ++ (rest))))))) rfl p 3 k
  have t1_4 : ∀ p k, (PS.mk p (w1 ++ (⟨s1, .leftArrow, e1⟩ :: (⟨s2, .ampersand, e2⟩ :: (w2 ++ (⟨s3, .dot, e3⟩ :: (w3 ++ (w4 ++ (rest))))))))).among 4 k = (PS.mk p (⟨s1, .leftArrow, e1⟩ :: (⟨s2, .ampersand, e2⟩ :: (w2 ++ (⟨s3, .dot, e3⟩ :: (w3 ++ (w4 ++ (rest)))))))).among 3 k := fun p k => d1.single_among (K := ⟨s1, .leftArrow, e1⟩ :: (⟨s2, .ampersand, e2⟩ :: (w2 ++ (⟨s3, .dot, e3⟩ :: (w3 ++ (w4 ++ (rest))))))) rfl p 3 k
  have u1 := fun p => d1.at0_true (K := ⟨s1, .leftArrow, e1⟩ :: (⟨s2, .ampersand, e2⟩ :: (w2 ++ (⟨s3, .dot, e3⟩ :: (w3 ++ (w4 ++ (rest))))))) (k := .identifier []) rfl rfl p
  have r2 : ∀ pp, parse fu .regularId ⟨pp, w2 ++ (⟨s3, .dot, e3⟩ :: (w3 ++ (w4 ++ (rest))))⟩ = some (a, ⟨stopFrom pp w2, ⟨s3, .dot, e3⟩ :: (w3 ++ (w4 ++ (rest)))⟩) :=
    fun p => ih _ _ _ d2 rfl (by simp only [rank]; omega) p _ (.tok (by decide))
  have a2 := fun p k hk => d2.at0 (K := ⟨s3, .dot, e3⟩ :: (w3 ++ (w4 ++ (rest)))) rfl p k hk
  have b2 := fun p L hk => d2.among0 (K := ⟨s3, .dot, e3⟩ :: (w3 ++ (w4 ++ (rest)))) rfl p L hk
  have c2 := fun p L hk => d2.among0_false (K := ⟨s3, .dot, e3⟩ :: (w3 ++ (w4 ++ (rest)))) rfl p L hk
  have g2 := fun K => d2.startOf_app (K := K) rfl
  have e2e := fun p => d2.stop_eq rfl p
  have s2_1 : ∀ p k, (PS.mk p (w2 ++ (⟨s3, .dot, e3⟩ :: (w3 ++ (w4 ++ (rest)))))).at? 1 k = (PS.mk p (⟨s3, .dot, e3⟩ :: (w3 ++ (w4 ++ (rest))))).at? 0 k := fun p k => d2.single_at (K := ⟨s3, .dot, e3⟩ :: (w3 ++ (w4 ++ (rest)))) rfl p 0 k
  have t2_1 : ∀ p k, (PS.mk p (w2 ++ (⟨s3, .dot, e3⟩ :: (w3 ++ (w4 ++ (rest)))))).among 1 k = (PS.mk p (⟨s3, .dot, e3⟩ :: (w3 ++ (w4 ++ (rest))))).among 0 k := fun p k => d2.single_among (K := ⟨s3, .dot, e3⟩ :: (w3 ++ (w4 ++ (rest)))) rfl p 0 k
  have s2_2 : ∀ p k, (PS.mk p (w2 ++ (⟨s3, .dot, e3⟩ :: (w3 ++ (w4 ++ (rest)))))).at? 2 k = (PS.mk p (⟨s3, .dot, e3⟩ :: (w3 ++ (w4 ++ (rest))))).at? 1 k := fun p k => d2.single_at (K := ⟨s3, .dot, e3⟩ :: (w3 ++ (w4 ++ (rest)))) rfl p 1 k
  have t2_2 : ∀ p k, (PS.mk p (w2 ++ (⟨s3, .dot, e3⟩ :: (w3 ++ (w4 ++ (rest)))))).among 2 k = (PS.mk p (⟨s3, .dot, e3⟩ :: (w3 ++ (w4 ++ (rest))))).among 1 k := fun p k => d2.single_among (K := ⟨s3, .dot, e3⟩ :: (w3 ++ (w4 ++ (rest)))) rfl p 1 k
  have s2_3 : ∀ p k, (PS.mk p (w2 ++ (⟨s3, .dot, e3⟩ :: (w3 ++ (w4 ++ (rest)))))).at? 3 k = (PS.mk p (⟨s3, .dot, e3⟩ :: (w3 ++ (w4 ++ (rest))))).at? 2 k := fun p k => d2.single_at (K := ⟨s3, .dot, e3⟩ :: (w3 ++ (w4 ++ (rest)))) rfl p 2 k
  have t2_3 : ∀ p k, (PS.mk p (w2 ++ (⟨s3, .dot, e3⟩ :: (w3 ++ (w4 ++ (rest)))))).among 3 k = (PS.mk p (⟨s3, .dot, e3⟩ :: (w3 ++ (w4 ++ (rest))))).among 2 k := fun p k => d2.single_among (K := ⟨s3, .dot, e3⟩ :: (w3 ++ (w4 ++ (rest)))) rfl p 2 k
  have s2_4 : ∀ p k, (PS.mk p (w2 ++ (⟨s3, .dot, e3⟩ :: (w3 ++ (w4 ++ (rest)))))).at? 4 k = (PS.mk p (⟨s3, .dot, e3⟩ :: (w3 ++ (w4 ++ (rest))))).at? 3 k := fun p k => d2.single_at (K := ⟨s3, .dot, e3⟩ :: (w3 ++ (w4 ++ (rest)))) rfl p 3 k
  have t2_4 : ∀ p k, (PS.mk p (w2 ++ (⟨s3, .dot, e3⟩ :: (w3 ++ (w4 ++ (rest)))))).among 4 k = (PS.mk p (⟨s3, .dot, e3⟩ :: (w3 ++ (w4 ++ (rest))))).among 3 k := fun p k => d2.single_among (K := ⟨s3, .dot, e3⟩ :: (w3 ++ (w4 ++ (rest)))) rfl p 3 k
  have u2 := fun p => d2.at0_true (K := ⟨s3, .dot, e3⟩ :: (w3 ++ (w4 ++ (rest)))) (k := .identifier []) rfl rfl p
  have r3 : ∀ pp, parse fu .regularId ⟨pp, w3 ++ (w4 ++ (rest))⟩ = some (m, ⟨stopFrom pp w3, w4 ++ (rest)⟩) :=
    fun p => ih _ _ _ d3 rfl (by simp only [rank]; omega) p _ (.app d4 (by decide) rfl)
  have a3 := fun p k hk => d3.at0 (K := w4 ++ (rest)) rfl p k hk
  have b3 := fun p L hk => d3.among0 (K := w4 ++ (rest)) rfl p L hk
  have c3 := fun p L hk => d3.among0_false (K := w4 ++ (rest)) rfl p L hk
  have g3 := fun K => d3.startOf_app (K := K) rfl
  have e3e := fun p => d3.stop_eq rfl p
  have s3_1 : ∀ p k, (PS.mk p (w3 ++ (w4 ++ (rest)))).at? 1 k = (PS.mk p (w4 ++ (rest))).at? 0 k := fun p k => d3.single_at (K := w4 ++ (rest)) rfl p 0 k
  have t3_1 : ∀ p k, (PS.mk p (w3 ++ (w4 ++ (rest)))).among 1 k = (PS.mk p (w4 ++ (rest))).among 0 k := fun p k => d3.single_among (K := w4 ++ (rest)) rfl p 0 k
  have s3_2 : ∀ p k, (PS.mk p (w3 ++ (w4 ++ (rest)))).at? 2 k = (PS.mk p (w4 ++ (rest))).at? 1 k := fun p k => d3.single_at (K := w4 ++ (rest)) rfl p 1 k
  have t3_2 : ∀ p k, (PS.mk p (w3 ++ (w4 ++ (rest)))).among 2 k = (PS.mk p (w4 ++ (rest))).among 1 k := fun p k => d3.single_among (K := w4 ++ (rest)) rfl p 1 k
  have s3_3 : ∀ p k, (PS.mk p (w3 ++ (w4 ++ (rest)))).at? 3 k = (PS.mk p (w4 ++ (rest))).at? 2 k := fun p k => d3.single_at (K := w4 ++ (rest)) rfl p 2 k
  have t3_3 : ∀ p k, (PS.mk p (w3 ++ (w4 ++ (rest)))).among 3 k = (PS.mk p (w4 ++ (rest))).among 2 k := fun p k => d3.single_among (K := w4 ++ (rest)) rfl p 2 k
  have s3_4 : ∀ p k, (PS.mk p (w3 ++ (w4 ++ (rest)))).at? 4 k = (PS.mk p (w4 ++ (rest))).at? 3 k := fun p k => d3.single_at (K := w4 ++ (rest)) rfl p 3 k
  have t3_4 : ∀ p k, (PS.mk p (w3 ++ (w4 ++ (rest)))).among 4 k = (PS.mk p (w4 ++ (rest))).among 3 k := fun p k => d3.single_among (K := w4 ++ (rest)) rfl p 3 k
  have u3 := fun p => d3.at0_true (K := w4 ++ (rest)) (k := .identifier []) rfl rfl p
  have r4 : ∀ pp, parse fu (.plus .mapAccess) ⟨pp, w4 ++ (rest)⟩ = some (ks, ⟨stopFrom pp w4, rest⟩) :=
    fun p => ih _ _ _ d4 rfl (by simp only [rank]; omega) p _ (hF.mono (by decide))
  have a4 := fun p k hk => d4.at0 (K := rest) rfl p k hk
  have b4 := fun p L hk => d4.among0 (K := rest) rfl p L hk
  have c4 := fun p L hk => d4.among0_false (K := rest) rfl p L hk
  have g4 := fun K => d4.startOf_app (K := K) rfl
  have e4e := fun p => d4.stop_eq rfl p
  have u4 := fun p => d4.at0_true (K := rest) (k := .openBracket) rfl rfl p
  simp (decide := true) [pRemoteFetch, expect_cons, PS.wrap, mkW, startOf_cons, stopOf, stopFrom, stopFrom_append, hA, hB, r1, a1, b1, c1, g1, e1e, s1_1, t1_1, s1_2, t1_2, s1_3, t1_3, s1_4, t1_4, u1, r2, a2, b2, c2, g2, e2e, s2_1, t2_1, s2_2, t2_2, s2_3, t2_3, s2_4, t2_4, u2, r3, a3, b3, c3, g3, e3e, s3_1, t3_1, s3_2, t3_2, s3_3, t3_3, s3_4, t3_4, u3, r4, a4, b4, c4, g4, e4e, u4]

set_option autoImplicit true in
theorem c_rfExists (ih : Comp fu)
    (d1 : Derives .regularId w1 x)
    (d2 : Derives .regularId w2 a)
    (d3 : Derives .regularId w3 m)
    (d4 : Derives (.plus .mapAccess) w4 ks)
    (heq : w = w1 ++ ⟨s1, .leftArrow, e1⟩ :: ⟨s2, .ampersand, e2⟩ :: ⟨s4, .exists_, e4⟩ :: (w2 ++ ⟨s3, .dot, e3⟩ :: (w3 ++ w4)))
    (hl : 32 * w.length + rank .remoteFetch ≤ fu + 1) (hF : Follow (bad .remoteFetch) rest) :
    pRemoteFetch (parse fu) ⟨po, w ++ rest⟩ = some (((.readStateMutableMapAccessExists x a m ks) : Val .remoteFetch), ⟨stopFrom po w, rest⟩) := by
  have l1 := d1.length_pos rfl
  have l2 := d2.length_pos rfl
  have l3 := d3.length_pos rfl
  have l4 := d4.length_pos rfl
  subst heq
  simp only [List.length_append, List.length_cons, List.length_nil, rank] at hl
  have hA := fun p k hk => hF.at p k hk
  have hB := fun p M hM => hF.among (M := M) p hM
  have r1 : ∀ pp, parse fu .regularId ⟨pp, w1 ++ (⟨s1, .leftArrow, e1⟩ :: (⟨s2, .ampersand, e2⟩ :: (⟨s4, .exists_, e4⟩ :: (w2 ++ (⟨s3, .dot, e3⟩ :: (w3 ++ (w4 ++ (rest))))))))⟩ = some (x, ⟨stopFrom pp w1, ⟨s1, .leftArrow, e1⟩ :: (⟨s2, .ampersand, e2⟩ :: (⟨s4, .exists_, e4⟩ :: (w2 ++ (⟨s3, .dot, e3⟩ :: (w3 ++ (w4 ++ (rest)))))))⟩) :=
    fun p => ih _ _ _ d1 rfl (by simp only [rank]; omega) p _ (.tok (by decide))
  have a1 := fun p k hk => d1.at0 (K := ⟨s1, .leftArrow, e1⟩ :: (⟨s2, .ampersand, e2⟩ :: (⟨s4, .exists_, e4⟩ :: (w2 ++ (⟨s3, .dot, e3⟩ :: (w3 ++ (w4 ++ (rest)))))))) rfl p k hk
  have b1 := fun p L hk => d1.among0 (K := ⟨s1, .leftArrow, e1⟩ :: (⟨s2, .ampersand, e2⟩ :: (⟨s4, .exists_, e4⟩ :: (w2 ++ (⟨s3, .dot, e3⟩ :: (w3 ++ (w4 ++ (rest)))))))) rfl p L hk
  have c1 := fun p L hk => d1.among0_false (K := ⟨s1, .leftArrow, e1⟩ :: (⟨s2, .ampersand, e2⟩ :: (⟨s4, .exists_, e4⟩ :: (w2 ++ (⟨s3, .dot, e3⟩ :: (w3 ++ (w4 ++ (rest)))))))) rfl p L hk
  have g1 := fun K => d1.startOf_app (K := K) rfl
  have e1e := fun p => d1.stop_eq rfl p
  have s1_1 : ∀ p k, (PS.mk p (w1 ++ (⟨s1, .leftArrow, e1⟩ :: (⟨s2, .ampersand, e2⟩ :: (⟨s4, .exists_, e4⟩ :: (w2 ++ (⟨s3, .dot, e3⟩ :: (w3 ++ (w4 ++ (rest)))))))))).at? 1 k = (PS.mk p (⟨s1, .leftArrow, e1⟩ :: (⟨s2, .ampersand, e2⟩ :: (⟨s4, .exists_, e4⟩ :: (w2 ++ (⟨s3, .dot, e3⟩ :: (w3 ++ (w4 ++ (rest))))))))).at? 0 k := fun p k => d1.single_at (K := ⟨s1, .leftArrow, e1⟩ :: (⟨s2, .ampersand, e2⟩ :: (⟨s4, .exists_, e4⟩ :: (w2 ++ (⟨s3, .dot, e3⟩ :: (w3 ++ (w4 ++ (rest)))))))) rfl p 0 k
  have t1_1 : ∀ p k, (PS.mk p (w1 ++ (⟨s1, .leftArrow, e1⟩ :: (⟨s2, .ampersand, e2⟩ :: (⟨s4, .exists_, e4⟩ :: (w2 ++ (⟨s3, .dot, e3⟩ :: (w3 ++ (w4 ++ (rest)))))))))).among 1 k = (PS.mk p (⟨s1, .leftArrow, e1⟩ :: (⟨s2, .ampersand, e2⟩ :: (⟨s4, .exists_, e4⟩ :: (w2 ++ (⟨s3, .dot, e3⟩ :: (w3 ++ (w4 ++ (rest))))))))).among 0 k := fun p k => d1.single_among (K := ⟨s1, .leftArrow, e1⟩ :: (⟨s2, .ampersand, e2⟩ :: (⟨s4, .exists_, e4⟩ :: (w2 ++ (⟨s3, .dot, e3⟩ :: (w3 ++ (w4 ++ (rest)))))))) rfl p 0 k
  have s1_2 : ∀ p k, (PS.mk p (w1 ++ (⟨s1, .leftArrow, e1⟩ :: (⟨s2, .ampersand, e2⟩ :: (⟨s4, .exists_, e4⟩ :: (w2 ++ (⟨s3, .dot, e3⟩ :: (w3 ++ (w4 ++ (rest)))))))))).at? 2 k = (PS.mk p (⟨s1, .leftArrow, e1⟩ :: (⟨s2, .ampersand, e2⟩ :: (⟨s4, .exists_, e4⟩ :: (w2 ++ (⟨s3, .dot, e3⟩ :: (w3 ++ (w4 ++ (rest))))))))).at? 1 k := fun p k => d1.single_at (K := ⟨s1, .leftArrow, e1⟩ :: (⟨s2, .ampersand, e2⟩ :: (⟨s4, .exists_, e4⟩ :: (w2 ++ (⟨s3, .dot, e3⟩ :: (w3 ++ (w4 ++ (rest)))))))) rfl p 1 k
  have t1_2 : ∀ p k, (PS.mk p (w1 ++ (⟨s1, .leftArrow, e1⟩ :: (⟨s2, .ampersand, e2⟩ :: (⟨s4, .exists_, e4⟩ :: (w2 ++ (⟨s3, .dot, e3⟩ :: (w3 ++ (w4 ++ (rest)))))))))).among 2 k = (PS.mk p (⟨s1, .leftArrow, e1⟩ :: (⟨s2, .ampersand, e2⟩ :: (⟨s4, .exists_, e4⟩ :: (w2 ++ (⟨s3, .dot, e3⟩ :: (w3 ++ (w4 ++ (rest))))))))).among 1 k := fun p k => d1.single_among (K := ⟨s1, .leftArrow, e1⟩ :: (⟨s2, .ampersand, e2⟩ :: (⟨s4, .exists_, e4⟩ :: (w2 ++ (⟨s3, .dot, e3⟩ :: (w3 ++ (w4 ++ (rest)))))))) rfl p 1 k
  have s1_3 : ∀ p k, (PS.mk p (w1 ++ (⟨s1, .leftArrow, e1⟩ :: (⟨s2, .ampersand, e2⟩ :: (⟨s4, .exists_, e4⟩ :: (w2 ++ (⟨s3, .dot, e3⟩ :: (w3 ++ (w4 ++ (rest)))))))))).at? 3 k = (PS.mk p (⟨s1, .leftArrow, e1⟩ :: (⟨s2, .ampersand, e2⟩ :: (⟨s4, .exists_, e4⟩ :: (w2 ++ (⟨s3, .dot, e3⟩ :: (w3 ++ (w4 ++ (rest))))))))).at? 2 k := fun p k => d1.single_at (K := ⟨s1, .leftArrow, e1⟩ :: (⟨s2, .ampersand, e2⟩ :: (⟨s4, .exists_, e4⟩ :: (w2 ++ (⟨s3, .dot, e3⟩ :: (w3 ++ (w4 ++ (rest)))))))) rfl p 2 k
  have t1_3 : ∀ p k, (PS.mk p (w1 ++ (⟨s1, .leftArrow, e1⟩ :: (⟨s2, .ampersand, e2⟩ :: (⟨s4, .exists_, e4⟩ :: (w2 ++ (⟨s3, .dot, e3⟩ :: (w3 ++ (w4 ++ (rest)))))))))).among 3 k = (PS.mk p (⟨s1, .leftArrow, e1⟩ :: (⟨s2, .ampersand, e2⟩ :: (⟨s4, .exists_, e4⟩ :: (w2 ++ (⟨s3, .dot, e3⟩ :: (w3 ++ (w4 ++ (rest))))))))).among 2 k := fun p k => d1.single_among (K := ⟨s1, .leftArrow, e1⟩ :: (⟨s2, .ampersand, e2⟩ :: (⟨s4, .exists_, e4⟩ :: (w2 ++ (⟨s3, .dot, e3⟩ :: (w3 ++ (w4 ++ (rest)))))))) rfl p 2 k
  have s1_4 : ∀ p k, (PS.mk p (w1 ++ (⟨s1, .leftArrow, e1⟩ :: (⟨s2, .ampersand, e2⟩ :: (⟨s4, .exists_, e4⟩ :: (w2 ++ (⟨s3, .dot, e3⟩ :: (w3 ++ (w4 ++ (rest)))))))))).at? 4 k = (PS.mk p (⟨s1, .leftArrow, e1⟩ :: (⟨s2, .ampersand, e2⟩ :: (⟨s4, .exists_, e4⟩ :: (w2 ++ (⟨s3, .dot, e3⟩ :: (w3 ++ (w4 ++ (rest))))))))).at? 3 k := fun p k => d1.single_at (K := ⟨s1, .leftArrow, e1⟩ :: (⟨s2, .ampersand, e2⟩ :: (⟨s4, .exists_, e4⟩ :: (w2 ++ (⟨s3, .dot, e3⟩ :: (w3 ++ (w4 ++ (rest)))))))) rfl p 3 k
  have t1_4 : ∀ p k, (PS.mk p (w1 ++ (⟨s1, .leftArrow, e1⟩ :: (⟨s2, .ampersand, e2⟩ :: (⟨s4, .exists_, e4⟩ :: (w2 ++ (⟨s3, .dot, e3⟩ :: (w3 ++ (w4 ++ (rest)))))))))).among 4 k = (PS.mk p (⟨s1, .leftArrow, e1⟩ :: (⟨s2, .ampersand, e2⟩ :: (⟨s4, .exists_, e4⟩ :: (w2 ++ (⟨s3, .dot, e3⟩ :: (w3 ++ (w4 ++ (rest))))))))).among 3 k := fun p k => d1.single_among (K := ⟨s1, .leftArrow, e1⟩ :: (⟨s2, .ampersand, e2⟩ :: (⟨s4, .exists_, e4⟩ :: (w2 ++ (⟨s3, .dot, e3⟩ :: (w3 ++ (w4 ++ (rest)))))))) rfl p 3 k
  have u1 := fun p => d1.at0_true (K := ⟨s1, .leftArrow, e1⟩ :: (⟨s2, .ampersand, e2⟩ :: (⟨s4, .exists_, e4⟩ :: (w2 ++ (⟨s3, .dot, e3⟩ :: (w3 ++ (w4 ++ (rest)))))))) (k := .identifier []) rfl rfl p
  have r2 : ∀ pp, parse fu .regularId ⟨pp, w2 ++ (⟨s3, .dot, e3⟩ :: (w3 ++ (w4 ++ (rest))))⟩ = some (a, ⟨stopFrom pp w2, ⟨s3, .dot, e3⟩ :: (w3 ++ (w4 ++ (rest)))⟩) :=
    fun p => ih _ _ _ d2 rfl (by simp only [rank]; omega) p _ (.tok (by decide))
  have a2 := fun p k hk => d2.at0 (K := ⟨s3, .dot, e3⟩ :: (w3 ++ (w4 ++ (rest)))) rfl p k hk
  have b2 := fun p L hk => d2.among0 (K := ⟨s3, .dot, e3⟩ :: (w3 ++ (w4 ++ (rest)))) rfl p L hk
  have c2 := fun p L hk => d2.among0_false (K := ⟨s3, .dot, e3⟩ :: (w3 ++ (w4 ++ (rest)))) rfl p L hk
  have g2 := fun K => d2.startOf_app (K := K) rfl
  have e2e := fun p => d2.stop_eq rfl p
  have s2_1 : ∀ p k, (PS.mk p (w2 ++ (⟨s3, .dot, e3⟩ :: (w3 ++ (w4 ++ (rest)))))).at? 1 k = (PS.mk p (⟨s3, .dot, e3⟩ :: (w3 ++ (w4 ++ (rest))))).at? 0 k := fun p k => d2.single_at (K := ⟨s3, .dot, e3⟩ :: (w3 ++ (w4 ++ (rest)))) rfl p 0 k
  have t2_1 : ∀ p k, (PS.mk p (w2 ++ (⟨s3, .dot, e3⟩ :: (w3 ++ (w4 ++ (rest)))))).among 1 k = (PS.mk p (⟨s3, .dot, e3⟩ :: (w3 ++ (w4 ++ (rest))))).among 0 k := fun p k => d2.single_among (K := ⟨s3, .dot, e3⟩ :: (w3 ++ (w4 ++ (rest)))) rfl p 0 k
  have s2_2 : ∀ p k, (PS.mk p (w2 ++ (⟨s3, .dot, e3⟩ :: (w3 ++ (w4 ++ (rest)))))).at? 2 k = (PS.mk p (⟨s3, .dot, e3⟩ :: (w3 ++ (w4 ++ (rest))))).at? 1 k := fun p k => d2.single_at (K := ⟨s3, .dot, e3⟩ :: (w3 ++ (w4 ++ (rest)))) rfl p 1 k
  have t2_2 : ∀ p k, (PS.mk p (w2 ++ (⟨s3, .dot, e3⟩ :: (w3 ++ (w4 ++ (rest)))))).among 2 k = (PS.mk p (⟨s3, .dot, e3⟩ :: (w3 ++ (w4 ++ (rest))))).among 1 k := fun p k => d2.single_among (K := ⟨s3, .dot, e3⟩ :: (w3 ++ (w4 ++ (rest)))) rfl p 1 k
  have s2_3 : ∀ p k, (PS.mk p (w2 ++ (⟨s3, .dot, e3⟩ :: (w3 ++ (w4 ++ (rest)))))).at? 3 k = (PS.mk p (⟨s3, .dot, e3⟩ :: (w3 ++ (w4 ++ (rest))))).at? 2 k := fun p k => d2.single_at (K := ⟨s3, .dot, e3⟩ :: (w3 ++ (w4 ++ (rest)))) rfl p 2 k
  have t2_3 : ∀ p k, (PS.mk p (w2 ++ (⟨s3, .dot, e3⟩ :: (w3 ++ (w4 ++ (rest)))))).among 3 k = (PS.mk p (⟨s3, .dot, e3⟩ :: (w3 ++ (w4 ++ (rest))))).among 2 k := fun p k => d2.single_among (K := ⟨s3, .dot, e3⟩ :: (w3 ++ (w4 ++ (rest)))) rfl p 2 k
  have s2_4 : ∀ p k, (PS.mk p (w2 ++ (⟨s3, .dot, e3⟩ :: (w3 ++ (w4 ++ (rest)))))).at? 4 k = (PS.mk p (⟨s3, .dot, e3⟩ :: (w3 ++ (w4 ++ (rest))))).at? 3 k := fun p k => d2.single_at (K := ⟨s3, .dot, e3⟩ :: (w3 ++ (w4 ++ (rest)))) rfl p 3 k
  have t2_4 : ∀ p k, (PS.mk p (w2 ++ (⟨s3, .dot, e3⟩ :: (w3 ++ (w4 ++ (rest)))))).among 4 k = (PS.mk p (⟨s3, .dot, e3⟩ :: (w3 ++ (w4 ++ (rest))))).among 3 k := fun p k => d2.single_among (K := ⟨s3, .dot, e3⟩ :: (w3 ++ (w4 ++ (rest)))) rfl p 3 k
  have u2 := fun p => d2.at0_true (K := ⟨s3, .dot, e3⟩ :: (w3 ++ (w4 ++ (rest)))) (k := .identifier []) rfl rfl p
  have r3 : ∀ pp, parse fu .regularId ⟨pp, w3 ++ (w4 ++ (rest))⟩ = some (m, ⟨stopFrom pp w3, w4 ++ (rest)⟩) :=
    fun p => ih _ _ _ d3 rfl (by simp only [rank]; omega) p _ (.app d4 (by decide) rfl)
  have a3 := fun p k hk => d3.at0 (K := w4 ++ (rest)) rfl p k hk
  have b3 := fun p L hk => d3.among0 (K := w4 ++ (rest)) rfl p L hk
  have c3 := fun p L hk => d3.among0_false (K := w4 ++ (rest)) rfl p L hk
  have g3 := fun K => d3.startOf_app (K := K) rfl
  have e3e := fun p => d3.stop_eq rfl p
  have s3_1 : ∀ p k, (PS.mk p (w3 ++ (w4 ++ (rest)))).at? 1 k = (PS.mk p (w4 ++ (rest))).at? 0 k := fun p k => d3.single_at (K := w4 ++ (rest)) rfl p 0 k
  have t3_1 : ∀ p k, (PS.mk p (w3 ++ (w4 ++ (rest)))).among 1 k = (PS.mk p (w4 ++ (rest))).among 0 k := fun p k => d3.single_among (K := w4 ++ (rest)) rfl p 0 k
  have s3_2 : ∀ p k, (PS.mk p (w3 ++ (w4 ++ (rest)))).at? 2 k = (PS.mk p (w4 ++ (rest))).at? 1 k := fun p k => d3.single_at (K := w4 ++ (rest)) rfl p 1 k
  have t3_2 : ∀ p k, (PS.mk p (w3 ++ (w4 ++ (rest)))).among 2 k = (PS.mk p (w4 ++ (rest))).among 1 k := fun p k => d3.single_among (K := w4 ++ (rest)) rfl p 1 k
  have s3_3 : ∀ p k, (PS.mk p (w3 ++ (w4 ++ (rest)))).at? 3 k = (PS.mk p (w4 ++ (rest))).at? 2 k := fun p k => d3.single_at (K := w4 ++ (rest)) rfl p 2 k
  have t3_3 : ∀ p k, (PS.mk p (w3 ++ (w4 ++ (rest)))).among 3 k = (PS.mk p (w4 ++ (rest))).among 2 k := fun p k => d3.single_among (K := w4 ++ (rest)) rfl p 2 k
  have s3_4 : ∀ p k, (PS.mk p (w3 ++ (w4 ++ (rest)))).at? 4 k = (PS.mk p (w4 ++ (rest))).at? 3 k := fun p k => d3.single_at (K := w4 ++ (rest)) rfl p 3 k
  have t3_4 : ∀ p k, (PS.mk p (w3 ++ (w4 ++ (rest)))).among 4 k = (PS.mk p (w4 ++ (rest))).among 3 k := fun p k => d3.single_among (K := w4 ++ (rest)) rfl p 3 k
  have u3 := fun p => d3.at0_true (K := w4 ++ (rest)) (k := .identifier []) rfl rfl p
  have r4 : ∀ pp, parse fu (.plus .mapAccess) ⟨pp, w4 ++ (rest)⟩ = some (ks, ⟨stopFrom pp w4, rest⟩) :=
    fun p => ih _ _ _ d4 rfl (by simp only [rank]; omega) p _ (hF.mono (by decide))
  have a4 := fun p k hk => d4.at0 (K := rest) rfl p k hk
  have b4 := fun p L hk => d4.among0 (K := rest) rfl p L hk
  have c4 := fun p L hk => d4.among0_false (K := rest) rfl p L hk
  have g4 := fun K => d4.startOf_app (K := K) rfl
  have e4e := fun p => d4.stop_eq rfl p
  have u4 := fun p => d4.at0_true (K := rest) (k := .openBracket) rfl rfl p
  simp (decide := true) [pRemoteFetch, expect_cons, PS.wrap, mkW, startOf_cons, stopOf, stopFrom, stopFrom_append, hA, hB, r1, a1, b1, c1, g1, e1e, s1_1, t1_1, s1_2, t1_2, s1_3, t1_3, s1_4, t1_4, u1, r2, a2, b2, c2, g2, e2e, s2_1, t2_1, s2_2, t2_2, s2_3, t2_3, s2_4, t2_4, u2, r3, a3, b3, c3, g3, e3e, s3_1, t3_1, s3_2, t3_2, s3_3, t3_3, s3_4, t3_4, u3, r4, a4, b4, c4, g4, e4e, u4]

set_option autoImplicit true in
theorem c_rfCast (ih : Comp fu)
    (d1 : Derives .regularId w1 x)
    (d2 : Derives .varId w2 v)
    (d3 : Derives .addressType w3 a)
    (heq : w = w1 ++ ⟨s1, .leftArrow, e1⟩ :: ⟨s2, .ampersand, e2⟩ :: (w2 ++ ⟨s3, .as_, e3⟩ :: w3))
    (hl : 32 * w.length + rank .remoteFetch ≤ fu + 1) (hF : Follow (bad .remoteFetch) rest) :
    pRemoteFetch (parse fu) ⟨po, w ++ rest⟩ = some (((.readStateMutableCastAddress x v a) : Val .remoteFetch), ⟨stopFrom po w, rest⟩) := by
  have l1 := d1.length_pos rfl
  have l2 := d2.length_pos rfl
  have l3 := d3.length_pos rfl
  subst heq
  simp only [List.length_append, List.length_cons, List.length_nil, rank] at hl
  have hA := fun p k hk => hF.at p k hk
  have hB := fun p M hM => hF.among (M := M) p hM
  have r1 : ∀ pp, parse fu .regularId ⟨pp, w1 ++ (⟨s1, .leftArrow, e1⟩ :: (⟨s2, .ampersand, e2⟩ :: (w2 ++ (⟨s3, .as_, e3⟩ :: (w3 ++ (rest))))))⟩ = some (x, ⟨stopFrom pp w1, ⟨s1, .leftArrow, e1⟩ :: (⟨s2, .ampersand, e2⟩ :: (w2 ++ (⟨s3, .as_, e3⟩ :: (w3 ++ (rest)))))⟩) :=
    fun p => ih _ _ _ d1 rfl (by simp only [rank]; omega) p _ (.tok (by decide))
  have a1 := fun p k hk => d1.at0 (K := ⟨s1, .leftArrow, e1⟩ :: (⟨s2, .ampersand, e2⟩ :: (w2 ++ (⟨s3, .as_, e3⟩ :: (w3 ++ (rest)))))) rfl p k hk
  have b1 := fun p L hk => d1.among0 (K := ⟨s1, .leftArrow, e1⟩ :: (⟨s2, .ampersand, e2⟩ :: (w2 ++ (⟨s3, .as_, e3⟩ :: (w3 ++ (rest)))))) rfl p L hk
  have c1 := fun p L hk => d1.among0_false (K := ⟨s1, .leftArrow, e1⟩ :: (⟨s2, .ampersand, e2⟩ :: (w2 ++ (⟨s3, .as_, e3⟩ :: (w3 ++ (rest)))))) rfl p L hk
  have g1 := fun K => d1.startOf_app (K := K) rfl
  have e1e := fun p => d1.stop_eq rfl p
  have s1_1 : ∀ p k, (PS.mk p (w1 ++ (⟨s1, .leftArrow, e1⟩ :: (⟨s2, .ampersand, e2⟩ :: (w2 ++ (⟨s3, .as_, e3⟩ :: (w3 ++ (rest)))))))).at? 1 k = (PS.mk p (⟨s1, .leftArrow, e1⟩ :: (⟨s2, .ampersand, e2⟩ :: (w2 ++ (⟨s3, .as_, e3⟩ :: (w3 ++ (rest))))))).at? 0 k := fun p k => d1.single_at (K := ⟨s1, .leftArrow, e1⟩ :: (⟨s2, .ampersand, e2⟩ :: (w2 ++ (⟨s3, .as_, e3⟩ :: (w3 ++ (rest)))))) rfl p 0 k
  have t1_1 : ∀ p k, (PS.mk p (w1 ++ (⟨s1, .leftArrow, e1⟩ :: (⟨s2, .ampersand, e2⟩ :: (w2 ++ (⟨s3, .as_, e3⟩ :: (w3 ++ (rest)))))))).among 1 k = (PS.mk p (⟨s1, .leftArrow, e1⟩ :: (⟨s2, .ampersand, e2⟩ :: (w2 ++ (⟨s3, .as_, e3⟩ :: (w3 ++ (rest))))))).among 0 k := fun p k => d1.single_among (K := ⟨s1, .leftArrow, e1⟩ :: (⟨s2, .ampersand, e2⟩ :: (w2 ++ (⟨s3, .as_, e3⟩ :: (w3 ++ (rest)))))) rfl p 0 k
  have s1_2 : ∀ p k, (PS.mk p (w1 ++ (⟨s1, .leftArrow, e1⟩ :: (⟨s2, .ampersand, e2⟩ :: (w2 ++ (⟨s3, .as_, e3⟩ :: (w3 ++ (rest)))))))).at? 2 k = (PS.mk p (⟨s1, .leftArrow, e1⟩ :: (⟨s2, .ampersand, e2⟩ :: (w2 ++ (⟨s3, .as_, e3⟩ :: (w3 ++ (rest))))))).at? 1 k := fun p k => d1.single_at (K := ⟨s1, .leftArrow, e1⟩ :: (⟨s2, .ampersand, e2⟩ :: (w2 ++ (⟨s3, .as_, e3⟩ :: (w3 ++ (rest)))))) rfl p 1 k
  have t1_2 : ∀ p k, (PS.mk p (w1 ++ (⟨s1, .leftArrow, e1⟩ :: (⟨s2, .ampersand, e2⟩ :: (w2 ++ (⟨s3, .as_, e3⟩ :: (w3 ++ (rest)))))))).among 2 k = (PS.mk p (⟨s1, .leftArrow, e1⟩ :: (⟨s2, .ampersand, e2⟩ :: (w2 ++ (⟨s3, .as_, e3⟩ :: (w3 ++ (rest))))))).among 1 k := fun p k => d1.single_among (K := ⟨s1, .leftArrow, e1⟩ :: (⟨s2, .ampersand, e2⟩ :: (w2 ++ (⟨s3, .as_, e3⟩ :: (w3 ++ (rest)))))) rfl p 1 k
  have s1_3 : ∀ p k, (PS.mk p (w1 ++ (⟨s1, .leftArrow, e1⟩ :: (⟨s2, .ampersand, e2⟩ :: (w2 ++ (⟨s3, .as_, e3⟩ :: (w3 ++ (rest)))))))).at? 3 k = (PS.mk p (⟨s1, .leftArrow, e1⟩ :: (⟨s2, .ampersand, e2⟩ :: (w2 ++ (⟨s3, .as_, e3⟩ :: (w3 ++ (rest))))))).at? 2 k := fun p k => d1.single_at (K := ⟨s1, .leftArrow, e1⟩ :: (⟨s2, .ampersand, e2⟩ :: (w2 ++ (⟨s3, .as_, e3⟩ :: (w3 ++ (rest)))))) rfl p 2 k
  have t1_3 : ∀ p k, (PS.mk p (w1 ++ (⟨s1, .leftArrow, e1⟩ :: (⟨s2, .ampersand, e2⟩ :: (w2 ++ (⟨s3, .as_, e3⟩ :: (w3 ++ (rest)))))))).among 3 k = (PS.mk p (⟨s1, .leftArrow, e1⟩ :: (⟨s2, .ampersand, e2⟩ :: (w2 ++ (⟨s3, .as_, e3⟩ :: (w3 ++ (rest))))))).among 2 k := fun p k => d1.single_among (K := ⟨s1, .leftArrow, e1⟩ :: (⟨s2, .ampersand, e2⟩ :: (w2 ++ (⟨s3, .as_, e3⟩ :: (w3 ++ (rest)))))) rfl p 2 k
  have s1_4 : ∀ p k, (PS.mk p (w1 ++ (⟨s1, .leftArrow, e1⟩ :: (⟨s2, .ampersand, e2⟩ :: (w2 ++ (⟨s3, .as_, e3⟩ :: (w3 ++ (rest)))))))).at? 4 k = (PS.mk p (⟨s1, .leftArrow, e1⟩ :: (⟨s2, .ampersand, e2⟩ :: (w2 ++ (⟨s3, .as_, e3⟩ :: (w3 ++ (rest))))))).at? 3 k := fun p k => d1.single_at (K := ⟨s1, .leftArrow, e1⟩ :: (⟨s2, .ampersand, e2⟩ :: (w2 ++ (⟨s3, .as_, e3⟩ :: (w3 ++ (rest)))))) rfl p 3 k
  have t1_4 : ∀ p k, (PS.mk p (w1 ++ (⟨s1, .leftArrow, e1⟩ :: (⟨s2, .ampersand, e2⟩ :: (w2 ++ (⟨s3, .as_, e3⟩ :: (w3 ++ (rest)))))))).among 4 k = (PS.mk p (⟨s1, .leftArrow, e1⟩ :: (⟨s2, .ampersand, e2⟩ :: (w2 ++ (⟨s3, .as_, e3⟩ :: (w3 ++ (rest))))))).among 3 k := fun p k => d1.single_among (K := ⟨s1, .leftArrow, e1⟩ :: (⟨s2, .ampersand, e2⟩ :: (w2 ++ (⟨s3, .as_, e3⟩ :: (w3 ++ (rest)))))) rfl p 3 k
  have u1 := fun p => d1.at0_true (K := ⟨s1, .leftArrow, e1⟩ :: (⟨s2, .ampersand, e2⟩ :: (w2 ++ (⟨s3, .as_, e3⟩ :: (w3 ++ (rest)))))) (k := .identifier []) rfl rfl p
  have r2 : ∀ pp, parse fu .varId ⟨pp, w2 ++ (⟨s3, .as_, e3⟩ :: (w3 ++ (rest)))⟩ = some (v, ⟨stopFrom pp w2, ⟨s3, .as_, e3⟩ :: (w3 ++ (rest))⟩) :=
    fun p => ih _ _ _ d2 rfl (by simp only [rank]; omega) p _ (.tok (by decide))
  have a2 := fun p k hk => d2.at0 (K := ⟨s3, .as_, e3⟩ :: (w3 ++ (rest))) rfl p k hk
  have b2 := fun p L hk => d2.among0 (K := ⟨s3, .as_, e3⟩ :: (w3 ++ (rest))) rfl p L hk
  have c2 := fun p L hk => d2.among0_false (K := ⟨s3, .as_, e3⟩ :: (w3 ++ (rest))) rfl p L hk
  have g2 := fun K => d2.startOf_app (K := K) rfl
  have e2e := fun p => d2.stop_eq rfl p
  have v2 := fun p => isVar_varId (K := ⟨s3, .as_, e3⟩ :: (w3 ++ (rest))) d2 p
  have r3 : ∀ pp, parse fu .addressType ⟨pp, w3 ++ (rest)⟩ = some (a, ⟨stopFrom pp w3, rest⟩) :=
    fun p => ih _ _ _ d3 rfl (by simp only [rank]; omega) p _ (hF.mono (by decide))
  have a3 := fun p k hk => d3.at0 (K := rest) rfl p k hk
  have b3 := fun p L hk => d3.among0 (K := rest) rfl p L hk
  have c3 := fun p L hk => d3.among0_false (K := rest) rfl p L hk
  have g3 := fun K => d3.startOf_app (K := K) rfl
  have e3e := fun p => d3.stop_eq rfl p
  have v3 := fun p => isAddr_addressType (K := rest) d3 p
  rcases varId_shape (K := ⟨s3, .as_, e3⟩ :: (w3 ++ (rest))) d2 with x2 | x2 <;>
    simp (decide := true) [pRemoteFetch, expect_cons, PS.wrap, mkW, startOf_cons, stopOf, stopFrom, stopFrom_append, hA, hB, r1, a1, b1, c1, g1, e1e, s1_1, t1_1, s1_2, t1_2, s1_3, t1_3, s1_4, t1_4, u1, r2, a2, b2, c2, g2, e2e, v2, r3, a3, b3, c3, g3, e3e, v3, x2]

set_option autoImplicit true in
theorem c_mapAccess (ih : Comp fu)
    (d1 : Derives .varId w1 x)
    (heq : w = ⟨s1, .openBracket, e1⟩ :: (w1 ++ [⟨s2, .closeBracket, e2⟩]))
    (hl : 32 * w.length + rank .mapAccess ≤ fu + 1) (hF : Follow (bad .mapAccess) rest) :
    pMapAccess (parse fu) ⟨po, w ++ rest⟩ = some (((mkW w ⟨x⟩) : Val .mapAccess), ⟨stopFrom po w, rest⟩) := by
  have l1 := d1.length_pos rfl
  subst heq
  simp only [List.length_append, List.length_cons, List.length_nil, rank] at hl
  have hA := fun p k hk => hF.at p k hk
  have hB := fun p M hM => hF.among (M := M) p hM
  have r1 : ∀ pp, parse fu .varId ⟨pp, w1 ++ (⟨s2, .closeBracket, e2⟩ :: (rest))⟩ = some (x, ⟨stopFrom pp w1, ⟨s2, .closeBracket, e2⟩ :: (rest)⟩) :=
    fun p => ih _ _ _ d1 rfl (by simp only [rank]; omega) p _ (.tok (by decide))
  have a1 := fun p k hk => d1.at0 (K := ⟨s2, .closeBracket, e2⟩ :: (rest)) rfl p k hk
  have b1 := fun p L hk => d1.among0 (K := ⟨s2, .closeBracket, e2⟩ :: (rest)) rfl p L hk
  have c1 := fun p L hk => d1.among0_false (K := ⟨s2, .closeBracket, e2⟩ :: (rest)) rfl p L hk
  have g1 := fun K => d1.startOf_app (K := K) rfl
  have e1e := fun p => d1.stop_eq rfl p
  have v1 := fun p => isVar_varId (K := ⟨s2, .closeBracket, e2⟩ :: (rest)) d1 p
  simp (decide := true) [pMapAccess, expect_cons, PS.wrap, mkW, startOf_cons, stopOf, stopFrom, stopFrom_append, hA, hB, r1, a1, b1, c1, g1, e1e, v1]

set_option autoImplicit true in
theorem c_paramPair (ih : Comp fu)
    (d1 : Derives .typedId w t)
    (hl : 32 * w.length + rank .paramPair ≤ fu + 1) (hF : Follow (bad .paramPair) rest) :
    pParamPair (parse fu) ⟨po, w ++ rest⟩ = some (((mkW w ⟨t⟩) : Val .paramPair), ⟨stopFrom po w, rest⟩) := by
  have l1 := d1.length_pos rfl
  simp only [List.length_append, List.length_cons, List.length_nil, rank] at hl
  have hA := fun p k hk => hF.at p k hk
  have hB := fun p M hM => hF.among (M := M) p hM
  have r1 : ∀ pp, parse fu .typedId ⟨pp, w ++ (rest)⟩ = some (t, ⟨stopFrom pp w, rest⟩) :=
    fun p => ih _ _ _ d1 rfl (by simp only [rank]; omega) p _ (hF.mono (by decide))
  have a1 := fun p k hk => d1.at0 (K := rest) rfl p k hk
  have b1 := fun p L hk => d1.among0 (K := rest) rfl p L hk
  have c1 := fun p L hk => d1.among0_false (K := rest) rfl p L hk
  have g1 := fun K => d1.startOf_app (K := K) rfl
  have e1e := fun p => d1.stop_eq rfl p
  simp (decide := true) [pParamPair, expect_cons, PS.wrap, mkW, startOf_cons, stopOf, stopFrom, stopFrom_append, hA, hB, r1, a1, b1, c1, g1, e1e]

set_option autoImplicit true in
theorem c_nextParamPair (ih : Comp fu)
    (d1 : Derives .paramPair w1 p)
    (heq : w = ⟨s1, .comma, e1⟩ :: w1)
    (hl : 32 * w.length + rank .nextParamPair ≤ fu + 1) (hF : Follow (bad .nextParamPair) rest) :
    pNextParamPair (parse fu) ⟨po, w ++ rest⟩ = some ((p : Val .nextParamPair), ⟨stopFrom po w, rest⟩) := by
  have l1 := d1.length_pos rfl
  subst heq
  simp only [List.length_append, List.length_cons, List.length_nil, rank] at hl
  have hA := fun p k hk => hF.at p k hk
  have hB := fun p M hM => hF.among (M := M) p hM
  have r1 : ∀ pp, parse fu .paramPair ⟨pp, w1 ++ (rest)⟩ = some (p, ⟨stopFrom pp w1, rest⟩) :=
    fun p => ih _ _ _ d1 rfl (by simp only [rank]; omega) p _ (hF.mono (by decide))
  have a1 := fun p k hk => d1.at0 (K := rest) rfl p k hk
  have b1 := fun p L hk => d1.among0 (K := rest) rfl p L hk
  have c1 := fun p L hk => d1.among0_false (K := rest) rfl p L hk
  have g1 := fun K => d1.startOf_app (K := K) rfl
  have e1e := fun p => d1.stop_eq rfl p
  simp (decide := true) [pNextParamPair, expect_cons, PS.wrap, mkW, startOf_cons, stopOf, stopFrom, stopFrom_append, hA, hB, r1, a1, b1, c1, g1, e1e]

set_option autoImplicit true in
theorem c_compParams (ih : Comp fu)
    (d1 : Derives (.opt .paramPair) w1 p)
    (d2 : Derives (.star .nextParamPair) w2 ps)
    (heq : w = ⟨s1, .openParen, e1⟩ :: (w1 ++ (w2 ++ [⟨s2, .closeParen, e2⟩])))
    (hl : 32 * w.length + rank .compParams ≤ fu + 1) (hF : Follow (bad .compParams) rest) :
    pCompParams (parse fu) ⟨po, w ++ rest⟩ = some (((mkW w ⟨p.toList ++ ps⟩) : Val .compParams), ⟨stopFrom po w, rest⟩) := by
  subst heq
  simp only [List.length_append, List.length_cons, List.length_nil, rank] at hl
  have hA := fun p k hk => hF.at p k hk
  have hB := fun p M hM => hF.among (M := M) p hM
  have r1 : ∀ pp, parse fu (.opt .paramPair) ⟨pp, w1 ++ (w2 ++ (⟨s2, .closeParen, e2⟩ :: (rest)))⟩ = some (p, ⟨stopFrom pp w1, w2 ++ (⟨s2, .closeParen, e2⟩ :: (rest))⟩) :=
    fun p => ih _ _ _ d1 rfl (by simp only [rank]; omega) p _ (.app' d2 (by decide) (.tok (by decide)))
  have r2 : ∀ pp, parse fu (.star .nextParamPair) ⟨pp, w2 ++ (⟨s2, .closeParen, e2⟩ :: (rest))⟩ = some (ps, ⟨stopFrom pp w2, ⟨s2, .closeParen, e2⟩ :: (rest)⟩) :=
    fun p => ih _ _ _ d2 rfl (by simp only [rank]; omega) p _ (.tok (by decide))
  simp (decide := true) [pCompParams, expect_cons, PS.wrap, mkW, startOf_cons, stopOf, stopFrom, stopFrom_append, hA, hB, r1, r2]

set_option autoImplicit true in
theorem c_compTransition (ih : Comp fu)
    (d1 : Derives .transDef w d)
    (hl : 32 * w.length + rank .compDef ≤ fu + 1) (hF : Follow (bad .compDef) rest) :
    pCompDef (parse fu) ⟨po, w ++ rest⟩ = some (((mkW w (.transitionComponent d)) : Val .compDef), ⟨stopFrom po w, rest⟩) := by
  have l1 := d1.length_pos rfl
  simp only [List.length_append, List.length_cons, List.length_nil, rank] at hl
  have hA := fun p k hk => hF.at p k hk
  have hB := fun p M hM => hF.among (M := M) p hM
  have r1 : ∀ pp, parse fu .transDef ⟨pp, w ++ (rest)⟩ = some (d, ⟨stopFrom pp w, rest⟩) :=
    fun p => ih _ _ _ d1 rfl (by simp only [rank]; omega) p _ (hF.mono (by decide))
  have a1 := fun p k hk => d1.at0 (K := rest) rfl p k hk
  have b1 := fun p L hk => d1.among0 (K := rest) rfl p L hk
  have c1 := fun p L hk => d1.among0_false (K := rest) rfl p L hk
  have g1 := fun K => d1.startOf_app (K := K) rfl
  have e1e := fun p => d1.stop_eq rfl p
  have u1 := fun p => d1.at0_true (K := rest) (k := .transition) rfl rfl p
  simp (decide := true) [pCompDef, expect_cons, PS.wrap, mkW, startOf_cons, stopOf, stopFrom, stopFrom_append, hA, hB, r1, a1, b1, c1, g1, e1e, u1]

set_option autoImplicit true in
theorem c_compProcedure (ih : Comp fu)
    (d1 : Derives .procDef w d)
    (hl : 32 * w.length + rank .compDef ≤ fu + 1) (hF : Follow (bad .compDef) rest) :
    pCompDef (parse fu) ⟨po, w ++ rest⟩ = some (((mkW w (.procedureComponent d)) : Val .compDef), ⟨stopFrom po w, rest⟩) := by
  have l1 := d1.length_pos rfl
  simp only [List.length_append, List.length_cons, List.length_nil, rank] at hl
  have hA := fun p k hk => hF.at p k hk
  have hB := fun p M hM => hF.among (M := M) p hM
  have r1 : ∀ pp, parse fu .procDef ⟨pp, w ++ (rest)⟩ = some (d, ⟨stopFrom pp w, rest⟩) :=
    fun p => ih _ _ _ d1 rfl (by simp only [rank]; omega) p _ (hF.mono (by decide))
  have a1 := fun p k hk => d1.at0 (K := rest) rfl p k hk
  have b1 := fun p L hk => d1.among0 (K := rest) rfl p L hk
  have c1 := fun p L hk => d1.among0_false (K := rest) rfl p L hk
  have g1 := fun K => d1.startOf_app (K := K) rfl
  have e1e := fun p => d1.stop_eq rfl p
  simp (decide := true) [pCompDef, expect_cons, PS.wrap, mkW, startOf_cons, stopOf, stopFrom, stopFrom_append, hA, hB, r1, a1, b1, c1, g1, e1e]

set_option autoImplicit true in
theorem c_transDef (ih : Comp fu)
    (d1 : Derives .componentId w1 n)
    (d2 : Derives .compParams w2 ps)
    (d3 : Derives .compBody w3 b)
    (heq : w = ⟨s1, .transition, e1⟩ :: (w1 ++ (w2 ++ w3)))
    (hl : 32 * w.length + rank .transDef ≤ fu + 1) (hF : Follow (bad .transDef) rest) :
    pTransDef (parse fu) ⟨po, w ++ rest⟩ = some (((mkW w ⟨n, ps, b⟩) : Val .transDef), ⟨stopFrom po w, rest⟩) := by
  have l1 := d1.length_pos rfl
  have l2 := d2.length_pos rfl
  have l3 := d3.length_pos rfl
  subst heq
  simp only [List.length_append, List.length_cons, List.length_nil, rank] at hl
  have hA := fun p k hk => hF.at p k hk
  have hB := fun p M hM => hF.among (M := M) p hM
  have r1 : ∀ pp, parse fu .componentId ⟨pp, w1 ++ (w2 ++ (w3 ++ (rest)))⟩ = some (n, ⟨stopFrom pp w1, w2 ++ (w3 ++ (rest))⟩) :=
    fun p => ih _ _ _ d1 rfl (by simp only [rank]; omega) p _ (.app d2 (by decide) rfl)
  have a1 := fun p k hk => d1.at0 (K := w2 ++ (w3 ++ (rest))) rfl p k hk
  have b1 := fun p L hk => d1.among0 (K := w2 ++ (w3 ++ (rest))) rfl p L hk
  have c1 := fun p L hk => d1.among0_false (K := w2 ++ (w3 ++ (rest))) rfl p L hk
  have g1 := fun K => d1.startOf_app (K := K) rfl
  have e1e := fun p => d1.stop_eq rfl p
  have s1_1 : ∀ p k, (PS.mk p (w1 ++ (w2 ++ (w3 ++ (rest))))).at? 1 k = (PS.mk p (w2 ++ (w3 ++ (rest)))).at? 0 k := fun p k => d1.single_at (K := w2 ++ (w3 ++ (rest))) rfl p 0 k
  have t1_1 : ∀ p k, (PS.mk p (w1 ++ (w2 ++ (w3 ++ (rest))))).among 1 k = (PS.mk p (w2 ++ (w3 ++ (rest)))).among 0 k := fun p k => d1.single_among (K := w2 ++ (w3 ++ (rest))) rfl p 0 k
  have s1_2 : ∀ p k, (PS.mk p (w1 ++ (w2 ++ (w3 ++ (rest))))).at? 2 k = (PS.mk p (w2 ++ (w3 ++ (rest)))).at? 1 k := fun p k => d1.single_at (K := w2 ++ (w3 ++ (rest))) rfl p 1 k
  have t1_2 : ∀ p k, (PS.mk p (w1 ++ (w2 ++ (w3 ++ (rest))))).among 2 k = (PS.mk p (w2 ++ (w3 ++ (rest)))).among 1 k := fun p k => d1.single_among (K := w2 ++ (w3 ++ (rest))) rfl p 1 k
  have s1_3 : ∀ p k, (PS.mk p (w1 ++ (w2 ++ (w3 ++ (rest))))).at? 3 k = (PS.mk p (w2 ++ (w3 ++ (rest)))).at? 2 k := fun p k => d1.single_at (K := w2 ++ (w3 ++ (rest))) rfl p 2 k
  have t1_3 : ∀ p k, (PS.mk p (w1 ++ (w2 ++ (w3 ++ (rest))))).among 3 k = (PS.mk p (w2 ++ (w3 ++ (rest)))).among 2 k := fun p k => d1.single_among (K := w2 ++ (w3 ++ (rest))) rfl p 2 k
  have s1_4 : ∀ p k, (PS.mk p (w1 ++ (w2 ++ (w3 ++ (rest))))).at? 4 k = (PS.mk p (w2 ++ (w3 ++ (rest)))).at? 3 k := fun p k => d1.single_at (K := w2 ++ (w3 ++ (rest))) rfl p 3 k
  have t1_4 : ∀ p k, (PS.mk p (w1 ++ (w2 ++ (w3 ++ (rest))))).among 4 k = (PS.mk p (w2 ++ (w3 ++ (rest)))).among 3 k := fun p k => d1.single_among (K := w2 ++ (w3 ++ (rest))) rfl p 3 k
  have r2 : ∀ pp, parse fu .compParams ⟨pp, w2 ++ (w3 ++ (rest))⟩ = some (ps, ⟨stopFrom pp w2, w3 ++ (rest)⟩) :=
    fun p => ih _ _ _ d2 rfl (by simp only [rank]; omega) p _ (.app d3 (by decide) rfl)
  have a2 := fun p k hk => d2.at0 (K := w3 ++ (rest)) rfl p k hk
  have b2 := fun p L hk => d2.among0 (K := w3 ++ (rest)) rfl p L hk
  have c2 := fun p L hk => d2.among0_false (K := w3 ++ (rest)) rfl p L hk
  have g2 := fun K => d2.startOf_app (K := K) rfl
  have e2e := fun p => d2.stop_eq rfl p
  have r3 : ∀ pp, parse fu .compBody ⟨pp, w3 ++ (rest)⟩ = some (b, ⟨stopFrom pp w3, rest⟩) :=
    fun p => ih _ _ _ d3 rfl (by simp only [rank]; omega) p _ (hF.mono (by decide))
  have a3 := fun p k hk => d3.at0 (K := rest) rfl p k hk
  have b3 := fun p L hk => d3.among0 (K := rest) rfl p L hk
  have c3 := fun p L hk => d3.among0_false (K := rest) rfl p L hk
  have g3 := fun K => d3.startOf_app (K := K) rfl
  have e3e := fun p => d3.stop_eq rfl p
  simp (decide := true) [pTransDef, expect_cons, PS.wrap, mkW, startOf_cons, stopOf, stopFrom, stopFrom_append, hA, hB, r1, a1, b1, c1, g1, e1e, s1_1, t1_1, s1_2, t1_2, s1_3, t1_3, s1_4, t1_4, r2, a2, b2, c2, g2, e2e, r3, a3, b3, c3, g3, e3e]

set_option autoImplicit true in
theorem c_procDef (ih : Comp fu)
    (d1 : Derives .componentId w1 n)
    (d2 : Derives .compParams w2 ps)
    (d3 : Derives .compBody w3 b)
    (heq : w = ⟨s1, .procedure, e1⟩ :: (w1 ++ (w2 ++ w3)))
    (hl : 32 * w.length + rank .procDef ≤ fu + 1) (hF : Follow (bad .procDef) rest) :
    pProcDef (parse fu) ⟨po, w ++ rest⟩ = some (((mkW w ⟨n, ps, b⟩) : Val .procDef), ⟨stopFrom po w, rest⟩) := by
  have l1 := d1.length_pos rfl
  have l2 := d2.length_pos rfl
  have l3 := d3.length_pos rfl
  subst heq
  simp only [List.length_append, List.length_cons, List.length_nil, rank] at hl
  have hA := fun p k hk => hF.at p k hk
  have hB := fun p M hM => hF.among (M := M) p hM
  have r1 : ∀ pp, parse fu .componentId ⟨pp, w1 ++ (w2 ++ (w3 ++ (rest)))⟩ = some (n, ⟨stopFrom pp w1, w2 ++ (w3 ++ (rest))⟩) :=
    fun p => ih _ _ _ d1 rfl (by simp only [rank]; omega) p _ (.app d2 (by decide) rfl)
  have a1 := fun p k hk => d1.at0 (K := w2 ++ (w3 ++ (rest))) rfl p k hk
  have b1 := fun p L hk => d1.among0 (K := w2 ++ (w3 ++ (rest))) rfl p L hk
  have c1 := fun p L hk => d1.among0_false (K := w2 ++ (w3 ++ (rest))) rfl p L hk
  have g1 := fun K => d1.startOf_app (K := K) rfl
  have e1e := fun p => d1.stop_eq rfl p
  have s1_1 : ∀ p k, (PS.mk p (w1 ++ (w2 ++ (w3 ++ (rest))))).at? 1 k = (PS.mk p (w2 ++ (w3 ++ (rest)))).at? 0 k := fun p k => d1.single_at (K := w2 ++ (w3 ++ (rest))) rfl p 0 k
  have t1_1 : ∀ p k, (PS.mk p (w1 ++ (w2 ++ (w3 ++ (rest))))).among 1 k = (PS.mk p (w2 ++ (w3 ++ (rest)))).among 0 k := fun p k => d1.single_among (K := w2 ++ (w3 ++ (rest))) rfl p 0 k
  have s1_2 : ∀ p k, (PS.mk p (w1 ++ (w2 ++ (w3 ++ (rest))))).at? 2 k = (PS.mk p (w2 ++ (w3 ++ (rest)))).at? 1 k := fun p k => d1.single_at (K := w2 ++ (w3 ++ (rest))) rfl p 1 k
  have t1_2 : ∀ p k, (PS.mk p (w1 ++ (w2 ++ (w3 ++ (rest))))).among 2 k = (PS.mk p (w2 ++ (w3 ++ (rest)))).among 1 k := fun p k => d1.single_among (K := w2 ++ (w3 ++ (rest))) rfl p 1 k
  have s1_3 : ∀ p k, (PS.mk p (w1 ++ (w2 ++ (w3 ++ (rest))))).at? 3 k = (PS.mk p (w2 ++ (w3 ++ (rest)))).at? 2 k := fun p k => d1.single_at (K := w2 ++ (w3 ++ (rest))) rfl p 2 k
  have t1_3 : ∀ p k, (PS.mk p (w1 ++ (w2 ++ (w3 ++ (rest))))).among 3 k = (PS.mk p (w2 ++ (w3 ++ (rest)))).among 2 k := fun p k => d1.single_among (K := w2 ++ (w3 ++ (rest))) rfl p 2 k
  have s1_4 : ∀ p k, (PS.mk p (w1 ++ (w2 ++ (w3 ++ (rest))))).at? 4 k = (PS.mk p (w2 ++ (w3 ++ (rest)))).at? 3 k := fun p k => d1.single_at (K := w2 ++ (w3 ++ (rest))) rfl p 3 k
  have t1_4 : ∀ p k, (PS.mk p (w1 ++ (w2 ++ (w3 ++ (rest))))).among 4 k = (PS.mk p (w2 ++ (w3 ++ (rest)))).among 3 k := fun p k => d1.single_among (K := w2 ++ (w3 ++ (rest))) rfl p 3 k
  have r2 : ∀ pp, parse fu .compParams ⟨pp, w2 ++ (w3 ++ (rest))⟩ = some (ps, ⟨stopFrom pp w2, w3 ++ (rest)⟩) :=
    fun p => ih _ _ _ d2 rfl (by simp only [rank]; omega) p _ (.app d3 (by decide) rfl)
  have a2 := fun p k hk => d2.at0 (K := w3 ++ (rest)) rfl p k hk
  have b2 := fun p L hk => d2.among0 (K := w3 ++ (rest)) rfl p L hk
  have c2 := fun p L hk => d2.among0_false (K := w3 ++ (rest)) rfl p L hk
  have g2 := fun K => d2.startOf_app (K := K) rfl
  have e2e := fun p => d2.stop_eq rfl p
  have r3 : ∀ pp, parse fu .compBody ⟨pp, w3 ++ (rest)⟩ = some (b, ⟨stopFrom pp w3, rest⟩) :=
    fun p => ih _ _ _ d3 rfl (by simp only [rank]; omega) p _ (hF.mono (by decide))
  have a3 := fun p k hk => d3.at0 (K := rest) rfl p k hk
  have b3 := fun p L hk => d3.among0 (K := rest) rfl p L hk
  have c3 := fun p L hk => d3.among0_false (K := rest) rfl p L hk
  have g3 := fun K => d3.startOf_app (K := K) rfl
  have e3e := fun p => d3.stop_eq rfl p
  simp (decide := true) [pProcDef, expect_cons, PS.wrap, mkW, startOf_cons, stopOf, stopFrom, stopFrom_append, hA, hB, r1, a1, b1, c1, g1, e1e, s1_1, t1_1, s1_2, t1_2, s1_3, t1_3, s1_4, t1_4, r2, a2, b2, c2, g2, e2e, r3, a3, b3, c3, g3, e3e]

set_option autoImplicit true in
theorem c_compBody (ih : Comp fu)
    (d1 : Derives (.opt .stmtBlock) w1 b)
    (heq : w = w1 ++ [⟨s1, .end_, e1⟩])
    (hl : 32 * w.length + rank .compBody ≤ fu + 1) (hF : Follow (bad .compBody) rest) :
    pCompBody (parse fu) ⟨po, w ++ rest⟩ = some (((mkW w ⟨b⟩) : Val .compBody), ⟨stopFrom po w, rest⟩) := by
  subst heq
  simp only [List.length_append, List.length_cons, List.length_nil, rank] at hl
  have hA := fun p k hk => hF.at p k hk
  have hB := fun p M hM => hF.among (M := M) p hM
  have r1 : ∀ pp, parse fu (.opt .stmtBlock) ⟨pp, w1 ++ (⟨s1, .end_, e1⟩ :: (rest))⟩ = some (b, ⟨stopFrom pp w1, ⟨s1, .end_, e1⟩ :: (rest)⟩) :=
    fun p => ih _ _ _ d1 rfl (by simp only [rank]; omega) p _ (.tok (by decide))
  simp (decide := true) [pCompBody, expect_cons, PS.wrap, mkW, startOf_cons, stopOf, stopFrom, stopFrom_append, hA, hB, r1]
  cases w1 <;> rfl

set_option autoImplicit true in
theorem c_contractDef (ih : Comp fu)
    (d1 : Derives .typeName w1 n)
    (d2 : Derives .compParams w2 ps)
    (d3 : Derives (.opt .withConstraint) w3 c)
    (d4 : Derives (.star .contractField) w4 fs)
    (d5 : Derives (.star .compDef) w5 cs)
    (heq : w = ⟨s1, .contract, e1⟩ :: (w1 ++ (w2 ++ (w3 ++ (w4 ++ w5)))))
    (hl : 32 * w.length + rank .contractDef ≤ fu + 1) (hF : Follow (bad .contractDef) rest) :
    pContractDef (parse fu) ⟨po, w ++ rest⟩ = some (((mkW w ⟨n, ps, c, fs, cs⟩) : Val .contractDef), ⟨stopFrom po w, rest⟩) := by
  have l1 := d1.length_pos rfl
  have l2 := d2.length_pos rfl
  subst heq
  simp only [List.length_append, List.length_cons, List.length_nil, rank] at hl
  have hA := fun p k hk => hF.at p k hk
  have hB := fun p M hM => hF.among (M := M) p hM
  have r1 : ∀ pp, parse fu .typeName ⟨pp, w1 ++ (w2 ++ (w3 ++ (w4 ++ (w5 ++ (rest)))))⟩ = some (n, ⟨stopFrom pp w1, w2 ++ (w3 ++ (w4 ++ (w5 ++ (rest))))⟩) :=
    fun p => ih _ _ _ d1 rfl (by simp only [rank]; omega) p _ (.app d2 (by decide) rfl)
  have a1 := fun p k hk => d1.at0 (K := w2 ++ (w3 ++ (w4 ++ (w5 ++ (rest))))) rfl p k hk
  have b1 := fun p L hk => d1.among0 (K := w2 ++ (w3 ++ (w4 ++ (w5 ++ (rest))))) rfl p L hk
  have c1 := fun p L hk => d1.among0_false (K := w2 ++ (w3 ++ (w4 ++ (w5 ++ (rest))))) rfl p L hk
  have g1 := fun K => d1.startOf_app (K := K) rfl
  have e1e := fun p => d1.stop_eq rfl p
  have s1_1 : ∀ p k, (PS.mk p (w1 ++ (w2 ++ (w3 ++ (w4 ++ (w5 ++ (rest))))))).at? 1 k = (PS.mk p (w2 ++ (w3 ++ (w4 ++ (w5 ++ (rest)))))).at? 0 k := fun p k => d1.single_at (K := w2 ++ (w3 ++ (w4 ++ (w5 ++ (rest))))) rfl p 0 k
  have t1_1 : ∀ p k, (PS.mk p (w1 ++ (w2 ++ (w3 ++ (w4 ++ (w5 ++ (rest))))))).among 1 k = (PS.mk p (w2 ++ (w3 ++ (w4 ++ (w5 ++ (rest)))))).among 0 k := fun p k => d1.single_among (K := w2 ++ (w3 ++ (w4 ++ (w5 ++ (rest))))) rfl p 0 k
  have s1_2 : ∀ p k, (PS.mk p (w1 ++ (w2 ++ (w3 ++ (w4 ++ (w5 ++ (rest))))))).at? 2 k = (PS.mk p (w2 ++ (w3 ++ (w4 ++ (w5 ++ (rest)))))).at? 1 k := fun p k => d1.single_at (K := w2 ++ (w3 ++ (w4 ++ (w5 ++ (rest))))) rfl p 1 k
  have t1_2 : ∀ p k, (PS.mk p (w1 ++ (w2 ++ (w3 ++ (w4 ++ (w5 ++ (rest))))))).among 2 k = (PS.mk p (w2 ++ (w3 ++ (w4 ++ (w5 ++ (rest)))))).among 1 k := fun p k => d1.single_among (K := w2 ++ (w3 ++ (w4 ++ (w5 ++ (rest))))) rfl p 1 k
  have s1_3 : ∀ p k, (PS.mk p (w1 ++ (w2 ++ (w3 ++ (w4 ++ (w5 ++ (rest))))))).at? 3 k = (PS.mk p (w2 ++ (w3 ++ (w4 ++ (w5 ++ (rest)))))).at? 2 k := fun p k => d1.single_at (K := w2 ++ (w3 ++ (w4 ++ (w5 ++ (rest))))) rfl p 2 k
  have t1_3 : ∀ p k, (PS.mk p (w1 ++ (w2 ++ (w3 ++ (w4 ++ (w5 ++ (rest))))))).among 3 k = (PS.mk p (w2 ++ (w3 ++ (w4 ++ (w5 ++ (rest)))))).among 2 k := fun p k => d1.single_among (K := w2 ++ (w3 ++ (w4 ++ (w5 ++ (rest))))) rfl p 2 k
  have s1_4 : ∀ p k, (PS.mk p (w1 ++ (w2 ++ (w3 ++ (w4 ++ (w5 ++ (rest))))))).at? 4 k = (PS.mk p (w2 ++ (w3 ++ (w4 ++ (w5 ++ (rest)))))).at? 3 k := fun p k => d1.single_at (K := w2 ++ (w3 ++ (w4 ++ (w5 ++ (rest))))) rfl p 3 k
  have t1_4 : ∀ p k, (PS.mk p (w1 ++ (w2 ++ (w3 ++ (w4 ++ (w5 ++ (rest))))))).among 4 k = (PS.mk p (w2 ++ (w3 ++ (w4 ++ (w5 ++ (rest)))))).among 3 k := fun p k => d1.single_among (K := w2 ++ (w3 ++ (w4 ++ (w5 ++ (rest))))) rfl p 3 k
  have r2 : ∀ pp, parse fu .compParams ⟨pp, w2 ++ (w3 ++ (w4 ++ (w5 ++ (rest))))⟩ = some (ps, ⟨stopFrom pp w2, w3 ++ (w4 ++ (w5 ++ (rest)))⟩) :=
    fun p => ih _ _ _ d2 rfl (by simp only [rank]; omega) p _ (.app' d3 (by decide) (.app' d4 (by decide) (.app' d5 (by decide) (hF.mono (by decide)))))
  have a2 := fun p k hk => d2.at0 (K := w3 ++ (w4 ++ (w5 ++ (rest)))) rfl p k hk
  have b2 := fun p L hk => d2.among0 (K := w3 ++ (w4 ++ (w5 ++ (rest)))) rfl p L hk
  have c2 := fun p L hk => d2.among0_false (K := w3 ++ (w4 ++ (w5 ++ (rest)))) rfl p L hk
  have g2 := fun K => d2.startOf_app (K := K) rfl
  have e2e := fun p => d2.stop_eq rfl p
  have r3 : ∀ pp, parse fu (.opt .withConstraint) ⟨pp, w3 ++ (w4 ++ (w5 ++ (rest)))⟩ = some (c, ⟨stopFrom pp w3, w4 ++ (w5 ++ (rest))⟩) :=
    fun p => ih _ _ _ d3 rfl (by simp only [rank]; omega) p _ (.app' d4 (by decide) (.app' d5 (by decide) (hF.mono (by decide))))
  have r4 : ∀ pp, parse fu (.star .contractField) ⟨pp, w4 ++ (w5 ++ (rest))⟩ = some (fs, ⟨stopFrom pp w4, w5 ++ (rest)⟩) :=
    fun p => ih _ _ _ d4 rfl (by simp only [rank]; omega) p _ (.app' d5 (by decide) (hF.mono (by decide)))
  have r5 : ∀ pp, parse fu (.star .compDef) ⟨pp, w5 ++ (rest)⟩ = some (cs, ⟨stopFrom pp w5, rest⟩) :=
    fun p => ih _ _ _ d5 rfl (by simp only [rank]; omega) p _ (hF.mono (by decide))
  simp (decide := true) [pContractDef, expect_cons, PS.wrap, mkW, startOf_cons, stopOf, stopFrom, stopFrom_append, hA, hB, r1, a1, b1, c1, g1, e1e, s1_1, t1_1, s1_2, t1_2, s1_3, t1_3, s1_4, t1_4, r2, a2, b2, c2, g2, e2e, r3, r4, r5]

set_option autoImplicit true in
theorem c_contractField (ih : Comp fu)
    (d1 : Derives .typedId w1 t)
    (d2 : Derives .fullExpr w2 ex)
    (heq : w = ⟨s1, .field, e1⟩ :: (w1 ++ ⟨s2, .equals, e2⟩ :: w2))
    (hl : 32 * w.length + rank .contractField ≤ fu + 1) (hF : Follow (bad .contractField) rest) :
    pContractField (parse fu) ⟨po, w ++ rest⟩ = some (((mkW w ⟨t, ex⟩) : Val .contractField), ⟨stopFrom po w, rest⟩) := by
  have l1 := d1.length_pos rfl
  have l2 := d2.length_pos rfl
  subst heq
  simp only [List.length_append, List.length_cons, List.length_nil, rank] at hl
  have hA := fun p k hk => hF.at p k hk
  have hB := fun p M hM => hF.among (M := M) p hM
  have r1 : ∀ pp, parse fu .typedId ⟨pp, w1 ++ (⟨s2, .equals, e2⟩ :: (w2 ++ (rest)))⟩ = some (t, ⟨stopFrom pp w1, ⟨s2, .equals, e2⟩ :: (w2 ++ (rest))⟩) :=
    fun p => ih _ _ _ d1 rfl (by simp only [rank]; omega) p _ (.tok (by decide))
  have a1 := fun p k hk => d1.at0 (K := ⟨s2, .equals, e2⟩ :: (w2 ++ (rest))) rfl p k hk
  have b1 := fun p L hk => d1.among0 (K := ⟨s2, .equals, e2⟩ :: (w2 ++ (rest))) rfl p L hk
  have c1 := fun p L hk => d1.among0_false (K := ⟨s2, .equals, e2⟩ :: (w2 ++ (rest))) rfl p L hk
  have g1 := fun K => d1.startOf_app (K := K) rfl
  have e1e := fun p => d1.stop_eq rfl p
  have r2 : ∀ pp, parse fu .fullExpr ⟨pp, w2 ++ (rest)⟩ = some (ex, ⟨stopFrom pp w2, rest⟩) :=
    fun p => ih _ _ _ d2 rfl (by simp only [rank]; omega) p _ (hF.mono (by decide))
  have a2 := fun p k hk => d2.at0 (K := rest) rfl p k hk
  have b2 := fun p L hk => d2.among0 (K := rest) rfl p L hk
  have c2 := fun p L hk => d2.among0_false (K := rest) rfl p L hk
  have g2 := fun K => d2.startOf_app (K := K) rfl
  have e2e := fun p => d2.stop_eq rfl p
  simp (decide := true) [pContractField, expect_cons, PS.wrap, mkW, startOf_cons, stopOf, stopFrom, stopFrom_append, hA, hB, r1, a1, b1, c1, g1, e1e, r2, a2, b2, c2, g2, e2e]

set_option autoImplicit true in
theorem c_withConstraint (ih : Comp fu)
    (d1 : Derives .fullExpr w1 ex)
    (heq : w = ⟨s1, .with_, e1⟩ :: (w1 ++ [⟨s2, .doubleArrow, e2⟩]))
    (hl : 32 * w.length + rank .withConstraint ≤ fu + 1) (hF : Follow (bad .withConstraint) rest) :
    pWithConstraint (parse fu) ⟨po, w ++ rest⟩ = some (((mkW w ⟨ex⟩) : Val .withConstraint), ⟨stopFrom po w, rest⟩) := by
  have l1 := d1.length_pos rfl
  subst heq
  simp only [List.length_append, List.length_cons, List.length_nil, rank] at hl
  have hA := fun p k hk => hF.at p k hk
  have hB := fun p M hM => hF.among (M := M) p hM
  have r1 : ∀ pp, parse fu .fullExpr ⟨pp, w1 ++ (⟨s2, .doubleArrow, e2⟩ :: (rest))⟩ = some (ex, ⟨stopFrom pp w1, ⟨s2, .doubleArrow, e2⟩ :: (rest)⟩) :=
    fun p => ih _ _ _ d1 rfl (by simp only [rank]; omega) p _ (.tok (by decide))
  have a1 := fun p k hk => d1.at0 (K := ⟨s2, .doubleArrow, e2⟩ :: (rest)) rfl p k hk
  have b1 := fun p L hk => d1.among0 (K := ⟨s2, .doubleArrow, e2⟩ :: (rest)) rfl p L hk
  have c1 := fun p L hk => d1.among0_false (K := ⟨s2, .doubleArrow, e2⟩ :: (rest)) rfl p L hk
  have g1 := fun K => d1.startOf_app (K := K) rfl
  have e1e := fun p => d1.stop_eq rfl p
  simp (decide := true) [pWithConstraint, expect_cons, PS.wrap, mkW, startOf_cons, stopOf, stopFrom, stopFrom_append, hA, hB, r1, a1, b1, c1, g1, e1e]


/-! ### productions whose parsing does not follow the production -/

theorem textTok_cons {k : Token} {p : Pos} {t : STok} {ts : List STok} (h : t.tok.kind = k) :
    textTok k ⟨p, t :: ts⟩ = some (mkW [t] t.tok.text, ⟨t.stop, ts⟩) := by
  simp [textTok, h, mkW, startOf, stopOf, stopFrom]

theorem remote_look {w : List STok} {v : Val .remoteFetch} (d : Derives .remoteFetch w v) :
    ∃ a x b s1 e1 s2 e2 X, w = ⟨a, .identifier x, b⟩ :: ⟨s1, .leftArrow, e1⟩ ::
        ⟨s2, .ampersand, e2⟩ :: X ∧ ∀ p K,
      ((PS.mk p (X ++ K)).among 0 typeNameFirst && !(PS.mk p (X ++ K)).at? 1 .dot) = false := by
  cases d with
  | rfState h d1 d2 d3 =>
    obtain ⟨a, x, b, rfl⟩ := regularId_word d1
    obtain ⟨c, y, d, rfl⟩ := regularId_word d2
    exact ⟨a, x, b, _, _, _, _, _, h, by intro p K; simp [typeNameFirst]⟩
  | rfSpecial h d1 d2 d3 =>
    obtain ⟨a, x, b, rfl⟩ := regularId_word d1
    obtain ⟨c, y, d, rfl⟩ := specialId_word d2
    exact ⟨a, x, b, _, _, _, _, _, h, by intro p K; simp [typeNameFirst]⟩
  | rfMap h d1 d2 d3 d4 =>
    obtain ⟨a, x, b, rfl⟩ := regularId_word d1
    obtain ⟨c, y, d, rfl⟩ := regularId_word d2
    exact ⟨a, x, b, _, _, _, _, _, h, by intro p K; simp [typeNameFirst]⟩
  | rfExists h d1 d2 d3 d4 =>
    obtain ⟨a, x, b, rfl⟩ := regularId_word d1
    exact ⟨a, x, b, _, _, _, _, _, h, by intro p K; simp [typeNameFirst]⟩
  | rfCast h d1 d2 d3 =>
    obtain ⟨a, x, b, rfl⟩ := regularId_word d1
    refine ⟨a, x, b, _, _, _, _, _, h, ?_⟩
    intro p K
    cases d2 with
    | varName d => obtain ⟨c, y, d, rfl⟩ := regularId_word d; simp [typeNameFirst]
    | varSpecial d => obtain ⟨c, y, d, rfl⟩ := specialId_word d; simp [typeNameFirst]
    | varNamespace h d1 d2 =>
      obtain ⟨t, rfl, ht⟩ := typeName_word d1
      subst h
      simp

theorem c_stRemote {f : Nat} (ih : Comp f) {w rest : List STok} {p : Pos} {v : Val .remoteFetch}
    (d : Derives .remoteFetch w v) (hl : 32 * w.length + rank .statement ≤ f + 1)
    (hF : Follow (bad .statement) rest) : pStatement (parse f) ⟨p, w ++ rest⟩ =
      some ((.remoteFetch v : Val .statement), ⟨stopFrom p w, rest⟩) := by
  have r := ih _ _ _ d rfl (by simp only [rank] at hl ⊢; omega) p _ hF
  obtain ⟨a, x, b, s1, e1, s2, e2, X, rfl, hX⟩ := remote_look d
  simp only [List.cons_append] at r hX ⊢
  have q : ∀ p k, (PS.mk p (X ++ rest)).at? 0 k = (PS.mk p (X ++ rest)).at? 0 k := fun _ _ => rfl
  have hX := hX p rest
  unfold pStatement
  simp only [at_zero, at_one, at_two, at_three, at_four, among_three, among_two, among_one,
    kindOf_identifier, kindOf_leftArrow, kindOf_ampersand, hX, r]
  rfl

theorem import_spine : ∀ (N f : Nat) (_ : Comp f) (w : List STok) (v : Val .importDecls),
    w.length ≤ N → Derives .importDecls w v → 32 * w.length ≤ f →
    ∃ s1 e1 w1 w' ns j, w = ⟨s1, .import_, e1⟩ :: (w1 ++ w') ∧ j ≤ w'.length ∧
      Derives (.plus .importedName) w1 ns ∧
      (∀ L K, .import_ ∉ L → Follow L K → Follow L (w' ++ K)) ∧
      ∀ K k, Follow (.as_ :: typeNameFirst) K →
        importLoop (parse f) (k + j) (mkW (⟨s1, .import_, e1⟩ :: w1) ⟨ns⟩)
          ⟨stopOf (⟨s1, .import_, e1⟩ :: w1), w' ++ K⟩ =
        importLoop (parse f) k v ⟨stopOf w, K⟩ := by
  intro N
  induction N with
  | zero =>
    intro f _ w v hN d _
    have := d.length_pos rfl; omega
  | succ N IH =>
    intro f ih w v hN d hl
    cases d with
    | importFirst h d1 =>
      subst h
      refine ⟨_, _, _, [], _, 0, by rw [List.append_nil], by simp, d1, ?_, ?_⟩
      · intro L K _ h; simpa using h
      · intro K k _; simp
    | @importMore _ w1 w2 prev n s1 e1 h d1 d2 =>
      subst h
      simp only [List.length_append, List.length_cons] at hN hl
      obtain ⟨t1, u1, v1, v', ns, j, rfl, hj, dp, hfol, hloop⟩ :=
        IH f ih w1 prev (by omega) d1 (by omega)
      refine ⟨t1, u1, v1, v' ++ ⟨s1, .import_, e1⟩ :: w2, ns, j + 1, by simp, by simp; omega, dp,
        ?_, ?_⟩
      · intro L K hL hK
        rw [List.append_assoc]
        exact hfol L _ hL (.tok hL)
      · intro K k hK
        have h1 := hloop (⟨s1, .import_, e1⟩ :: (w2 ++ K)) (k + 1) (.tok (by decide))
        have e : k + (j + 1) = k + 1 + j := by omega
        rw [e, List.append_assoc, List.cons_append, h1]
        have r2 := ih _ _ _ d2 rfl (by simp only [rank]; omega) e1 K (hK.mono (by decide))
        simp [importLoop, expect_cons, r2, PS.wrap, startOf_cons, stopOf, stopFrom_append, stopFrom]

theorem c_import {f : Nat} (ih : Comp f) {w rest : List STok} {p : Pos} {v : Val .importDecls}
    (d : Derives .importDecls w v) (hl : 32 * w.length + rank .importDecls ≤ f + 1)
    (hF : Follow (bad .importDecls) rest) : pImportDecls (parse f) ⟨p, w ++ rest⟩ =
      some (v, ⟨stopFrom p w, rest⟩) := by
  simp only [rank] at hl
  have hw := d.ne_nil rfl
  obtain ⟨s1, e1, w1, w', ns, j, rfl, hj, dp, hfol, hloop⟩ :=
    import_spine w.length f ih w v (Nat.le_refl _) d (by omega)
  have l1 := dp.length_pos rfl
  simp only [List.length_append, List.length_cons] at hl
  have hF' : Follow (.as_ :: typeNameFirst) rest := hF.mono (by decide)
  have r1 := ih _ _ _ dp rfl (by simp only [rank]; omega) e1 (w' ++ rest)
    (hfol _ _ (by decide) (hF.mono (by decide)))
  have e : (w' ++ rest).length + 1 = (w'.length + rest.length + 1 - j) + j := by
    simp only [List.length_append]; omega
  have hl2 := hloop rest (w'.length + rest.length + 1 - j) hF'
  obtain ⟨m, hm⟩ : ∃ m, w'.length + rest.length + 1 - j = m + 1 :=
    ⟨w'.length + rest.length - j, by omega⟩
  rw [← e] at hl2
  have hA := hF.at (stopOf (⟨s1, .import_, e1⟩ :: (w1 ++ w'))) .import_ (by decide)
  simp only [pImportDecls, List.cons_append, expect_cons, List.append_assoc]
  simp only [kindOf_import_, if_true, Option.bind_eq_bind, Option.bind_some, r1]
  have ew : PS.wrap ⟨p, ⟨s1, .import_, e1⟩ :: (w1 ++ (w' ++ rest))⟩
      ⟨stopFrom e1 w1, w' ++ rest⟩ (NodeImportDeclarations.mk ns) =
      mkW (⟨s1, .import_, e1⟩ :: w1) ⟨ns⟩ := rfl
  rw [ew]
  have es : stopFrom e1 w1 = stopOf (⟨s1, .import_, e1⟩ :: w1) := rfl
  rw [es, hl2, hm]
  simp only [importLoop, hA]
  simp [stopOf, stopFrom]

theorem star_snoc {n : NT} : ∀ {vs : List (Val n)} {w w' : List STok} {v : Val n},
    Derives (.star n) w vs → Derives n w' v → Derives (.star n) (w ++ w') (vs ++ [v]) := by
  intro vs
  induction vs with
  | nil =>
    intro w w' v d d'
    rcases star_inv d with ⟨rfl, _⟩ | ⟨_, _, _, _, _, h, _⟩
    · simpa using Derives.starCons d' .starNil
    · cases h
  | cons x xs ih =>
    intro w w' v d d'
    rcases star_inv d with ⟨_, h⟩ | ⟨u1, u2, y, us, rfl, h, d1, d2⟩
    · cases h
    · injection h with ha hb; subst ha; subst hb
      have := ih d2 d'
      rw [List.append_assoc]
      exact .starCons d1 this

theorem builtin_spine : ∀ (N : Nat) (w : List STok) (v : Val .builtinArgs), w.length ≤ N →
    Derives .builtinArgs w v →
    (∃ s1 e1 s2 e2 w2 xs, w = ⟨s1, .openParen, e1⟩ :: ⟨s2, .closeParen, e2⟩ :: w2 ∧
      Derives (.star .varId) w2 xs ∧ v = mkW w ⟨xs⟩) ∨
    (∃ xs, Derives (.plus .varId) w xs ∧ v = mkW w ⟨xs⟩) := by
  intro N
  induction N with
  | zero => intro w v hN d; have := d.length_pos rfl; omega
  | succ N IH =>
    intro w v hN d
    cases d with
    | builtinUnit h => exact .inl ⟨_, _, _, _, [], [], h, .starNil, rfl⟩
    | builtinOne d =>
      refine .inr ⟨[_], ?_, rfl⟩
      simpa using Derives.plusIntro d .starNil
    | @builtinMore _ w1 w2 prev n h d1 d2 =>
      subst h
      have l := d2.length_pos rfl
      simp only [List.length_append] at hN
      rcases IH w1 prev (by omega) d1 with ⟨s1, e1, s2, e2, u, xs, rfl, ds, rfl⟩ | ⟨xs, dp, rfl⟩
      · exact .inl ⟨s1, e1, s2, e2, u ++ w2, xs ++ [n], by simp, star_snoc ds d2, rfl⟩
      · refine .inr ⟨xs ++ [n], ?_, rfl⟩
        obtain ⟨u1, u2, y, us, rfl, rfl, da, db⟩ := plus_inv dp
        rw [List.append_assoc]
        exact .plusIntro da (star_snoc db d2)

theorem c_builtin {f : Nat} (ih : Comp f) {w rest : List STok} {p : Pos} {v : Val .builtinArgs}
    (d : Derives .builtinArgs w v) (hl : 32 * w.length + rank .builtinArgs ≤ f + 1)
    (hF : Follow (bad .builtinArgs) rest) : pBuiltinArgs (parse f) ⟨p, w ++ rest⟩ =
      some (v, ⟨stopFrom p w, rest⟩) := by
  simp only [rank] at hl
  rcases builtin_spine w.length w v (Nat.le_refl _) d with
    ⟨s1, e1, s2, e2, u, xs, rfl, ds, rfl⟩ | ⟨xs, dp, rfl⟩
  · simp only [List.length_cons] at hl
    have r := fun p => ih _ _ _ ds rfl (by simp only [rank]; omega) p rest (hF.mono (by decide))
    simp [pBuiltinArgs, expect_cons, r, PS.wrap, mkW, startOf_cons, stopOf, stopFrom]
  · have r := fun p => ih _ _ _ dp rfl (by simp only [rank]; omega) p rest (hF.mono (by decide))
    have a := dp.at0 (K := rest) rfl p .openParen (by decide)
    have g := dp.startOf_app (K := rest) rfl
    have e := dp.stop_eq rfl
    simp [pBuiltinArgs, r, a, PS.wrap, mkW, stopOf, g, e]

theorem scilla_split : ∀ (N : Nat) (w : List STok) (v : W NodeScillaType), w.length ≤ N →
    Derives .funSig w v → ∃ w1 w2 s1 e1 a b, w = w1 ++ ⟨s1, .arrow, e1⟩ :: w2 ∧
      Derives .remaining w1 a ∧ Derives .scillaType w2 b ∧ v = mkW w (.functionType a b) := by
  intro N w v _ d
  cases d with
  | funSigMore h d1 d2 => exact ⟨_, _, _, _, _, _, h, d1, .typeFun d2, rfl⟩
  | funSigLast h d1 d2 => exact ⟨_, _, _, _, _, _, h, d1, .typeRem d2, rfl⟩

theorem c_funSig {f : Nat} (ih : Comp f) {w rest : List STok} {p : Pos} {v : W NodeScillaType}
    (d : Derives .funSig w v) (hl : 32 * w.length ≤ f)
    (hF : Follow badRemaining rest) : pFunSig (parse f) ⟨p, w ++ rest⟩ =
      some (v, ⟨stopFrom p w, rest⟩) ∧ pScillaType (parse f) ⟨p, w ++ rest⟩ =
      some (v, ⟨stopFrom p w, rest⟩) := by
  obtain ⟨w1, w2, s1, e1, a, b, rfl, d1, d2, rfl⟩ := scilla_split w.length w v (Nat.le_refl _) d
  have l1 := d1.length_pos rfl
  have l2 := d2.length_pos rfl
  simp only [List.length_append, List.length_cons] at hl
  have r1 := fun p => ih _ _ _ d1 rfl (by simp only [rank]; omega) p
    (⟨s1, .arrow, e1⟩ :: (w2 ++ rest)) (.tok (by decide))
  have r2 := fun p => ih _ _ _ d2 rfl (by simp only [rank]; omega) p rest hF
  have g := fun K => d1.startOf_app (K := K) rfl
  constructor
  · simp [pFunSig, r1, r2, expect_cons, PS.wrap, mkW, stopOf, stopFrom, stopFrom_append, g]
  · simp [pScillaType, r1, r2, expect_cons, PS.wrap, mkW, stopOf, stopFrom, stopFrom_append, g]

theorem c_typeRem {f : Nat} (ih : Comp f) {w rest : List STok} {p : Pos} {v : W NodeScillaType}
    (d : Derives .remaining w v) (hl : 32 * w.length + rank .scillaType ≤ f + 1)
    (hF : Follow badRemaining rest) : pScillaType (parse f) ⟨p, w ++ rest⟩ =
      some (v, ⟨stopFrom p w, rest⟩) := by
  simp only [rank] at hl
  have r1 := ih _ _ _ d rfl (by simp only [rank]; omega) p rest (hF.mono (by decide))
  have hA := fun p => hF.at p .arrow (by decide)
  simp [pScillaType, r1, hA]

theorem c_exprAtomic {f : Nat} (ih : Comp f) {w rest : List STok} {p : Pos} {v : Val .atomic}
    (d : Derives .atomic w v) (hl : 32 * w.length + rank .fullExpr ≤ f + 1)
    (hF : Follow (bad .fullExpr) rest) : pFullExpr (parse f) ⟨p, w ++ rest⟩ =
      some ((mkW w (.expressionAtomic v) : Val .fullExpr), ⟨stopFrom p w, rest⟩) := by
  simp only [rank] at hl
  have r := ih _ _ _ d rfl (by simp only [rank]; omega) p rest (hF.mono (by decide))
  have a := fun k hk => d.at0 (K := rest) rfl p k hk
  have g := d.startOf_app (K := rest) rfl
  have e := d.stop_eq rfl
  have hB := fun p M hM => hF.among (M := M) p hM
  cases d with
  | atomicVar d =>
    have r1 := ih _ _ _ d rfl (by simp only [rank]; omega) p rest (hF.mono (by decide))
    have iv := isVar_varId (K := rest) d p
    simp (decide := true) [pFullExpr, r1, a, iv, hB, PS.wrap, mkW, stopOf, g, e]
  | atomicLit d =>
    have iv := isVar_valueLit (K := rest) d p
    have il := isLit_valueLit (K := rest) d p (hF.mono (by decide))
    simp (decide := true) [pFullExpr, r, a, iv, il, PS.wrap, mkW, stopOf, g, e]

theorem c_mvNoArgs {f : Nat} (ih : Comp f) {w rest : List STok} {p : Pos} {v : Val .mapValue}
    (d : Derives .mapValue w v) (hl : 32 * w.length + rank .mapValueAllowing ≤ f + 1)
    (hF : Follow (bad .mapValueAllowing) rest) : pMapValueAllowing (parse f) ⟨p, w ++ rest⟩ =
      some ((mkW w (.typeMapValueNoArgs v) : Val .mapValueAllowing), ⟨stopFrom p w, rest⟩) := by
  simp only [rank] at hl
  have r := ih _ _ _ d rfl (by simp only [rank]; omega) p rest (hF.mono (by decide))
  have g := d.startOf_app (K := rest) rfl
  have e := d.stop_eq rfl
  have hB := fun p M hM => hF.among (M := M) p hM
  cases d with
  | valMeta d =>
    have r1 := ih _ _ _ d rfl (by simp only [rank]; omega) p rest (hF.mono (by decide))
    have ia := isAddr_metaId (K := rest) d p (hF.mono (by decide))
    have b := fun L hk => d.among0 (K := rest) rfl p L hk
    simp (decide := true) [pMapValueAllowing, r1, ia, b, hB, PS.wrap, mkW, stopOf, g, e]
  | valAddress d =>
    have ia := isAddr_addressType (K := rest) d p
    simp (decide := true) [pMapValueAllowing, r, ia, PS.wrap, mkW, stopOf, g, e]
  | valMap h d1 d2 =>
    subst h
    simp only [List.cons_append, List.append_assoc, List.nil_append] at r g ⊢
    simp [pMapValueAllowing, r, metaFirst, typeNameFirst, PS.wrap, mkW, stopOf, startOf_cons,
      stopFrom]
  | valParen h d1 =>
    subst h
    simp only [List.cons_append, List.append_assoc, List.nil_append] at r g ⊢
    simp [pMapValueAllowing, r, metaFirst, typeNameFirst, PS.wrap, mkW, stopOf, startOf_cons,
      stopFrom]

theorem good_disjoint {n : NT} (h : ((first n).all fun k => !(bad n).contains k) = true) :
    ∀ k ∈ first n, k ∉ bad n := by
  intro k hk
  have := List.all_eq_true.mp h k hk
  simpa using this

theorem c_starCons {f : Nat} (ih : Comp f) {n : NT} {w1 w2 rest : List STok} {p : Pos} {v : Val n}
    {vs : List (Val n)} (d1 : Derives n w1 v) (d2 : Derives (.star n) w2 vs)
    (hg : good (.star n) = true) (hl : 32 * (w1 ++ w2).length + (rank n + 1) ≤ f + 1)
    (hF : Follow (bad n ++ first n) rest) :
    pStar (parse f) n ⟨p, w1 ++ w2 ++ rest⟩ = some (v :: vs, ⟨stopFrom p (w1 ++ w2), rest⟩) ∧
    pPlus (parse f) n ⟨p, w1 ++ w2 ++ rest⟩ = some (v :: vs, ⟨stopFrom p (w1 ++ w2), rest⟩) := by
  have hg' := hg
  simp only [good, Bool.and_eq_true] at hg'
  obtain ⟨hb, hd⟩ := hg'
  have hd := good_disjoint hd
  have hh := base_heads hb
  have l1 := d1.length_pos (base_not_nullable hb)
  have gn : good n = true := by
    revert hb; cases n <;> simp [NT.base, good]
  have hr := rank_le n gn
  simp only [List.length_append] at hl
  have hfol : Follow (bad n) (w2 ++ rest) := by
    refine .app' d2 ?_ (hF.mono (fun k hk => List.mem_append_left _ hk))
    intro k hk; exact hd k (by simpa [heads, hh] using hk)
  have r1 := ih _ _ _ d1 gn (by omega) p (w2 ++ rest) hfol
  have r2 := ih _ _ _ d2 hg (by simp only [rank]; omega) (stopFrom p w1) rest hF
  have a := d1.among0 (K := w2 ++ rest) (base_not_nullable hb) p (first n) (by simp [hh])
  rw [List.append_assoc]
  constructor
  · simp [pStar, a, r1, r2, stopFrom_append]
  · simp [pPlus, r1, r2, stopFrom_append]

theorem comp_succ {f : Nat} (ih : Comp f) : Comp (f + 1) := by
  intro n w v d hg hl p rest hF
  show body (parse f) n ⟨p, w ++ rest⟩ = _
  cases d with
  | starNil =>
    rename_i n
    have hb := hF.among (M := first n) p (fun k hk => List.mem_append_right _ hk)
    simp [body, pStar, hb, stopFrom]
  | starCons d1 d2 => exact (c_starCons ih d1 d2 hg hl hF).1
  | plusIntro d1 d2 => exact (c_starCons ih d1 d2 hg hl hF).2
  | optNone =>
    rename_i n
    have hb := hF.among (M := first n) p (fun k hk => List.mem_append_right _ hk)
    simp [body, pOpt, hb, stopFrom]
  | optSome d1 =>
    rename_i n v
    simp only [good] at hg
    have gn : good n = true := by
      revert hg; cases n <;> simp [NT.base, good]
    simp only [rank] at hl
    have r := ih _ _ _ d1 gn (by omega) p rest (hF.mono (fun k hk => List.mem_append_left _ hk))
    have a := d1.among0 (K := rest) (base_not_nullable hg) p (first n) (by simp [base_heads hg])
    simp [body, pOpt, a, r]
  | hexNumber h => subst h; simp [body, textTok, mkW, startOf, stopOf, stopFrom, Token.text]
  | signedInt h => subst h; simp [body, textTok, mkW, startOf, stopOf, stopFrom, Token.text]
  | regularId h => subst h; simp [body, textTok, mkW, startOf, stopOf, stopFrom, Token.text]
  | specialId h => subst h; simp [body, textTok, mkW, startOf, stopOf, stopFrom, Token.text]
  | customId h => subst h; simp [body, textTok, mkW, startOf, stopOf, stopFrom, Token.text]
  | templateId h => subst h; simp [body, textTok, mkW, startOf, stopOf, stopFrom, Token.text]
  | stringLit h => subst h; simp [body, textTok, mkW, startOf, stopOf, stopFrom, Token.text]
  | byteString h =>
    subst h
    simp [body, pByteString, textTok, mkW, startOf, stopOf, stopFrom, Token.text]
  | importMore h d1 d2 => exact c_import ih (.importMore h d1 d2) hl hF
  | importFirst h d1 => exact c_import ih (.importFirst h d1) hl hF
  | builtinMore h d1 d2 => exact c_builtin ih (.builtinMore h d1 d2) hl hF
  | builtinOne d1 => exact c_builtin ih (.builtinOne d1) hl hF
  | builtinUnit h => exact c_builtin ih (.builtinUnit h) hl hF
  | funSigMore h d1 d2 =>
    exact (c_funSig ih (.funSigMore h d1 d2) (by simp only [rank] at hl; omega) hF).1
  | funSigLast h d1 d2 =>
    exact (c_funSig ih (.funSigLast h d1 d2) (by simp only [rank] at hl; omega) hF).1
  | typeFun d1 => exact (c_funSig ih d1 (by simp only [rank] at hl; omega) hF).2
  | typeRem d1 => exact c_typeRem ih d1 hl hF
  | exprAtomic d1 => exact c_exprAtomic ih d1 hl hF
  | mvNoArgs d1 => exact c_mvNoArgs ih d1 hl hF
  | stRemote d1 => exact c_stRemote ih d1 hl hF
  | typeNameBytes d1 => exact c_typeNameBytes ih d1 hl hF
  | typeNameEvent h  => exact c_typeNameEvent ih  h hl hF
  | typeNameCustom d1 => exact c_typeNameCustom ih d1 hl hF
  | importedRegular d1 => exact c_importedRegular ih d1 hl hF
  | importedAliased h d1 d2 => exact c_importedAliased ih d1 d2 h hl hF
  | metaName d1 => exact c_metaName ih d1 hl hF
  | metaNamespace h d1 d2 => exact c_metaNamespace ih d1 d2 h hl hF
  | metaHexspace h d1 d2 => exact c_metaHexspace ih d1 d2 h hl hF
  | metaByStr h  => exact c_metaByStr ih  h hl hF
  | varName d1 => exact c_varName ih d1 hl hF
  | varSpecial d1 => exact c_varSpecial ih d1 hl hF
  | varNamespace h d1 d2 => exact c_varNamespace ih d1 d2 h hl hF
  | remGeneric h d1 d2 => exact c_remGeneric ih d1 d2 h hl hF
  | remMap h d1 d2 => exact c_remMap ih d1 d2 h hl hF
  | remParen h d1 => exact c_remParen ih d1 h hl hF
  | remAddress d1 => exact c_remAddress ih d1 hl hF
  | remForall h d1 d2 => exact c_remForall ih d1 d2 h hl hF
  | remTypeVar d1 => exact c_remTypeVar ih d1 hl hF
  | argParen h d1 => exact c_argParen ih d1 h hl hF
  | argMeta d1 => exact c_argMeta ih d1 hl hF
  | argTemplate d1 => exact c_argTemplate ih d1 hl hF
  | argAddress d1 => exact c_argAddress ih d1 hl hF
  | argMap h d1 d2 => exact c_argMap ih d1 d2 h hl hF
  | addrEmpty h d1 => exact c_addrEmpty ih d1 h hl hF
  | addrContract h d1 d2 => exact c_addrContract ih d1 d2 h hl hF
  | addrLibrary h d1 => exact c_addrLibrary ih d1 h hl hF
  | addrSpecial h d1 d2 => exact c_addrSpecial ih d1 d2 h hl hF
  | addrFieldList h d1 d2 => exact c_addrFieldList ih d1 d2 h hl hF
  | nextAddrField h d1 => exact c_nextAddrField ih d1 h hl hF
  | addrField h d1 d2 => exact c_addrField ih d1 d2 h hl hF
  | keyMeta d1 => exact c_keyMeta ih d1 hl hF
  | keyParenMeta h d1 => exact c_keyParenMeta ih d1 h hl hF
  | keyParenAddress h d1 => exact c_keyParenAddress ih d1 h hl hF
  | keyAddress d1 => exact c_keyAddress ih d1 hl hF
  | valMeta d1 => exact c_valMeta ih d1 hl hF
  | valMap h d1 d2 => exact c_valMap ih d1 d2 h hl hF
  | valParen h d1 => exact c_valParen ih d1 h hl hF
  | valAddress d1 => exact c_valAddress ih d1 hl hF
  | mvaParen h d1 => exact c_mvaParen ih d1 h hl hF
  | mvaMeta d1 => exact c_mvaMeta ih d1 hl hF
  | mvaMap h d1 d2 => exact c_mvaMap ih d1 d2 h hl hF
  | program h d1 d2 d3 d4 => exact c_program ih d1 d2 d3 d4 h hl hF
  | libraryDef h d1 d2 => exact c_libraryDef ih d1 d2 h hl hF
  | libLet h d1 d2 d3 => exact c_libLet ih d1 d2 d3 h hl hF
  | libType h d1 => exact c_libType ih d1 h hl hF
  | libTypeAlts h d1 d2 => exact c_libTypeAlts ih d1 d2 h hl hF
  | typedId h d1 d2 => exact c_typedId ih d1 d2 h hl hF
  | typeAnn h d1 => exact c_typeAnn ih d1 h hl hF
  | altType h d1 => exact c_altType ih d1 h hl hF
  | altTypeArgs h d1 d2 => exact c_altTypeArgs ih d1 d2 h hl hF
  | mvWithArgs h d1 d2 => exact c_mvWithArgs ih d1 d2 h hl hF
  | contractTypeArgs h d1 => exact c_contractTypeArgs ih d1 h hl hF
  | exprLet h d1 d2 d3 d4 => exact c_exprLet ih d1 d2 d3 d4 h hl hF
  | exprFun h d1 d2 d3 => exact c_exprFun ih d1 d2 d3 h hl hF
  | exprCall h d1 d2 => exact c_exprCall ih d1 d2 h hl hF
  | exprBuiltin h d1 d2 d3 => exact c_exprBuiltin ih d1 d2 d3 h hl hF
  | exprMessage h d1 d2 => exact c_exprMessage ih d1 d2 h hl hF
  | exprMatch h d1 d2 => exact c_exprMatch ih d1 d2 h hl hF
  | exprConstr h d1 d2 d3 => exact c_exprConstr ih d1 d2 d3 h hl hF
  | exprTFun h d1 d2 => exact c_exprTFun ih d1 d2 h hl hF
  | exprTApp h d1 d2 => exact c_exprTApp ih d1 d2 h hl hF
  | pmExprClause h d1 d2 => exact c_pmExprClause ih d1 d2 h hl hF
  | patWildcard h  => exact c_patWildcard ih  h hl hF
  | patBinder d1 => exact c_patBinder ih d1 hl hF
  | patConstr h d1 d2 => exact c_patConstr ih d1 d2 h hl hF
  | apWildcard h  => exact c_apWildcard ih  h hl hF
  | apBinder d1 => exact c_apBinder ih d1 hl hF
  | apConstr d1 => exact c_apConstr ih d1 hl hF
  | apParen h d1 => exact c_apParen ih d1 h hl hF
  | nextMessage h d1 => exact c_nextMessage ih d1 h hl hF
  | msgLiteral h d1 d2 => exact c_msgLiteral ih d1 d2 h hl hF
  | msgVariable h d1 d2 => exact c_msgVariable ih d1 d2 h hl hF
  | atomicVar d1 => exact c_atomicVar ih d1 hl hF
  | atomicLit d1 => exact c_atomicLit ih d1 hl hF
  | litInt h d1 d2 => exact c_litInt ih d1 d2 h hl hF
  | litHex d1 => exact c_litHex ih d1 hl hF
  | litString d1 => exact c_litString ih d1 hl hF
  | litEmp h d1 d2 => exact c_litEmp ih d1 d2 h hl hF
  | stLoad h d1 d2 => exact c_stLoad ih d1 d2 h hl hF
  | stStore h d1 d2 => exact c_stStore ih d1 d2 h hl hF
  | stBind h d1 d2 => exact c_stBind ih d1 d2 h hl hF
  | stReadBC h d1 d2 d3 => exact c_stReadBC ih d1 d2 d3 h hl hF
  | stMapGet h d1 d2 d3 => exact c_stMapGet ih d1 d2 d3 h hl hF
  | stMapGetExists h d1 d2 d3 => exact c_stMapGetExists ih d1 d2 d3 h hl hF
  | stMapUpdate h d1 d2 d3 => exact c_stMapUpdate ih d1 d2 d3 h hl hF
  | stMapDelete h d1 d2 => exact c_stMapDelete ih d1 d2 h hl hF
  | stAccept h  => exact c_stAccept ih  h hl hF
  | stSend h d1 => exact c_stSend ih d1 h hl hF
  | stEvent h d1 => exact c_stEvent ih d1 h hl hF
  | stThrow h d1 => exact c_stThrow ih d1 h hl hF
  | stMatch h d1 d2 => exact c_stMatch ih d1 d2 h hl hF
  | stCall h d1 d2 => exact c_stCall ih d1 d2 h hl hF
  | stForall h d1 d2 => exact c_stForall ih d1 d2 h hl hF
  | nextStatement h d1 => exact c_nextStatement ih d1 h hl hF
  | stmtBlock h d1 d2 => exact c_stmtBlock ih d1 d2 h hl hF
  | bcFetchArgs h d1 => exact c_bcFetchArgs ih d1 h hl hF
  | componentType d1 => exact c_componentType ih d1 hl hF
  | componentRegular d1 => exact c_componentRegular ih d1 hl hF
  | pmClause h d1 d2 => exact c_pmClause ih d1 d2 h hl hF
  | rfState h d1 d2 d3 => exact c_rfState ih d1 d2 d3 h hl hF
  | rfSpecial h d1 d2 d3 => exact c_rfSpecial ih d1 d2 d3 h hl hF
  | rfMap h d1 d2 d3 d4 => exact c_rfMap ih d1 d2 d3 d4 h hl hF
  | rfExists h d1 d2 d3 d4 => exact c_rfExists ih d1 d2 d3 d4 h hl hF
  | rfCast h d1 d2 d3 => exact c_rfCast ih d1 d2 d3 h hl hF
  | mapAccess h d1 => exact c_mapAccess ih d1 h hl hF
  | paramPair d1 => exact c_paramPair ih d1 hl hF
  | nextParamPair h d1 => exact c_nextParamPair ih d1 h hl hF
  | compParams h d1 d2 => exact c_compParams ih d1 d2 h hl hF
  | compTransition d1 => exact c_compTransition ih d1 hl hF
  | compProcedure d1 => exact c_compProcedure ih d1 hl hF
  | transDef h d1 d2 d3 => exact c_transDef ih d1 d2 d3 h hl hF
  | procDef h d1 d2 d3 => exact c_procDef ih d1 d2 d3 h hl hF
  | compBody h d1 => exact c_compBody ih d1 h hl hF
  | contractDef h d1 d2 d3 d4 d5 => exact c_contractDef ih d1 d2 d3 d4 d5 h hl hF
  | contractField h d1 d2 => exact c_contractField ih d1 d2 h hl hF
  | withConstraint h d1 => exact c_withConstraint ih d1 h hl hF

theorem comp (f : Nat) : Comp f := by
  induction f with
  | zero =>
    intro n w v d hg hl
    have := (rank_le n hg).1
    omega
  | succ f ih => exact comp_succ ih

/-- Every derivable program is parsed, to the value of its derivation. -/
theorem parseProgram_complete {toks : List STok} {p : NodeProgram}
    (h : Derives .program toks p) : parseProgram toks = some p := by
  have := comp (parseFuel toks) .program toks p h rfl (by simp [parseFuel, rank]) default []
    Follow.nil
  rw [List.append_nil] at this
  simp [parseProgram, this]

end Verif
