import Verif.Model.Parser
/-
Soundness of the parser with respect to the grammar (generated by tools/gen_sound.py from
tools/sound_template.lean; one lemma per parsing function).
-/
namespace Verif

/-- From `s` to `s'` exactly the tokens `w` were consumed. -/
def Ok (s : PS) (w : List STok) (s' : PS) : Prop :=
  s.toks = w ++ s'.toks ∧ s'.last = stopFrom s.last w

theorem stopFrom_append (p : Pos) (a b : List STok) :
    stopFrom p (a ++ b) = stopFrom (stopFrom p a) b := by
  induction a generalizing p with
  | nil => rfl
  | cons t a ih => simp [stopFrom, ih]

theorem stopFrom_ne {w : List STok} (h : w ≠ []) (p q : Pos) : stopFrom p w = stopFrom q w := by
  cases w with
  | nil => exact absurd rfl h
  | cons t w => rfl

theorem Ok.refl (s : PS) : Ok s [] s := ⟨rfl, rfl⟩

theorem Ok.trans {s s1 s2 : PS} {a b : List STok} (h1 : Ok s a s1) (h2 : Ok s1 b s2) :
    Ok s (a ++ b) s2 := by
  refine ⟨by rw [h1.1, h2.1, List.append_assoc], ?_⟩
  rw [h2.2, h1.2, stopFrom_append]

theorem Ok.wrap {s s' : PS} {w : List STok} (h : Ok s w s') (hw : w ≠ []) {α : Type} (x : α) :
    s.wrap s' x = mkW w x := by
  simp only [PS.wrap, mkW, h.1, h.2, stopOf]
  rw [stopFrom_ne hw s.last default]
  cases w with
  | nil => exact absurd rfl hw
  | cons t w => rfl

theorem bind_some {α β : Type} {m : Option α} {f : α → Option β} {b : β}
    (h : (m >>= f) = some b) : ∃ a, m = some a ∧ f a = some b := by
  cases m with
  | none => simp at h
  | some a => exact ⟨a, rfl, by simpa using h⟩

theorem some_pair {α : Type} {a b : α} {s t : PS} (h : some (a, s) = some (b, t)) :
    a = b ∧ s = t := by
  injection h with h; injection h with h1 h2; exact ⟨h1, h2⟩

theorem ite_or {α : Type} {c : Prop} [Decidable c] {a b x : α} (h : (if c then a else b) = x) :
    (c ∧ a = x) ∨ (¬ c ∧ b = x) := by
  by_cases hc : c
  · rw [if_pos hc] at h; exact .inl ⟨hc, h⟩
  · rw [if_neg hc] at h; exact .inr ⟨hc, h⟩

/-- terminals without text -/
def Token.plain : Token → Bool
  | .byStrWithSize _ | .comment _ | .number _ | .hexNumber _ | .identifier _
  | .templateIdentifier _ | .customIdentifier _ | .specialIdentifier _ | .typeName _
  | .stringLiteral _ => false
  | _ => true

theorem kind_plain {t k : Token} (hk : k.plain = true) (h : t.kind = k) : t = k := by
  cases t <;> simp [Token.kind] at h <;> subst h <;> first | rfl | simp [Token.plain] at hk

theorem expect_ok {k : Token} {s s' : PS} {u : Unit} (hk : k.plain = true)
    (h : expect k s = some (u, s')) : ∃ a b, Ok s [⟨a, k, b⟩] s' := by
  unfold expect at h
  split at h
  · simp at h
  · rename_i t ts ht
    split at h
    · rename_i hkind
      obtain ⟨_, rfl⟩ := some_pair h
      have := kind_plain hk hkind
      refine ⟨t.start, t.stop, ?_, rfl⟩
      rw [ht]; cases t; simp_all
    · simp at h

/-- nonterminals that derive the empty word -/
def nullable : NT → Bool
  | .star _ => true
  | .opt _ => true
  | .plus n => nullable n
  | _ => false

theorem Derives.ne_nil {n : NT} {w : List STok} {v : Val n} (h : Derives n w v)
    (hn : nullable n = false) : w ≠ [] := by
  induction h <;> first
    | (simp [nullable] at hn; done)
    | (subst_vars; simp_all [nullable]; done)

/-- soundness of a family of parsers -/
def Sound (r : Rec) : Prop := ∀ n s (v : Val n) s', r n s = some (v, s') →
  ∃ w, Ok s w s' ∧ Derives n w v

variable {r : Rec}

theorem textTok_ok {k : Token} {s s' : PS} {x : W Str} (h : textTok k s = some (x, s')) :
    ∃ a t b, t.kind = k ∧ Ok s [⟨a, t, b⟩] s' ∧ x = mkW [⟨a, t, b⟩] t.text := by
  unfold textTok at h
  split at h
  · simp at h
  · rename_i t ts ht
    split at h
    · rename_i hkind
      obtain ⟨rfl, rfl⟩ := some_pair h
      exact ⟨t.start, t.tok, t.stop, hkind, ⟨ht, rfl⟩, rfl⟩
    · simp at h

theorem kind_hex {t : Token} (h : t.kind = .hexNumber []) : ∃ x, t = .hexNumber x := by
  cases t <;> simp [Token.kind] at h ⊢
theorem kind_num {t : Token} (h : t.kind = .number []) : ∃ x, t = .number x := by
  cases t <;> simp [Token.kind] at h ⊢
theorem kind_id {t : Token} (h : t.kind = .identifier []) : ∃ x, t = .identifier x := by
  cases t <;> simp [Token.kind] at h ⊢
theorem kind_sp {t : Token} (h : t.kind = .specialIdentifier []) : ∃ x, t = .specialIdentifier x := by
  cases t <;> simp [Token.kind] at h ⊢
theorem kind_cu {t : Token} (h : t.kind = .customIdentifier []) : ∃ x, t = .customIdentifier x := by
  cases t <;> simp [Token.kind] at h ⊢
theorem kind_te {t : Token} (h : t.kind = .templateIdentifier []) : ∃ x, t = .templateIdentifier x := by
  cases t <;> simp [Token.kind] at h ⊢
theorem kind_st {t : Token} (h : t.kind = .stringLiteral []) : ∃ x, t = .stringLiteral x := by
  cases t <;> simp [Token.kind] at h ⊢
theorem kind_by {t : Token} (h : t.kind = .byStrWithSize []) : ∃ x, t = .byStrWithSize x := by
  cases t <;> simp [Token.kind] at h ⊢

theorem pByteString_sound {s s' : PS} {v : Val .byteString}
    (h : pByteString s = some (v, s')) : ∃ w, Ok s w s' ∧ Derives .byteString w v := by
  simp only [pByteString] at h
  obtain ⟨⟨x, q1⟩, h1, h⟩ := bind_some h
  dsimp only at h
  obtain ⟨rfl, rfl⟩ := some_pair h
  obtain ⟨a, t, b, hk, ok, rfl⟩ := textTok_ok h1
  obtain ⟨x, rfl⟩ := kind_by hk
  exact ⟨_, ok, .byteString rfl⟩

theorem importLoop_sound (hr : Sound r) : ∀ (k : Nat) (s0 s s' : PS) (w : List STok)
    (prev v : W NodeImportDeclarations), Ok s0 w s → Derives .importDecls w prev →
    importLoop r k prev s = some (v, s') → ∃ w', Ok s0 w' s' ∧ Derives .importDecls w' v := by
  intro k
  induction k with
  | zero => intro s0 s s' w prev v _ _ h; simp [importLoop] at h
  | succ k ih =>
    intro s0 s s' w prev v hok hd h
    simp only [importLoop] at h
    split at h
    · obtain ⟨⟨v1, q1⟩, h1, h⟩ := bind_some h
      dsimp only at h
      obtain ⟨⟨v2, q2⟩, h2, h⟩ := bind_some h
      dsimp only at h
      obtain ⟨s1, e1, k1⟩ := expect_ok rfl h1
      obtain ⟨w2, k2, d2⟩ := hr _ _ _ _ h2
      have ok2 : Ok s (⟨s1, .import_, e1⟩ :: w2) q2 := k1.trans k2
      have ok : Ok s0 (w ++ ⟨s1, .import_, e1⟩ :: w2) q2 := hok.trans ok2
      refine ih s0 q2 s' (w ++ ⟨s1, .import_, e1⟩ :: w2) _ v ok ?_ h
      have := Derives.importMore (w := w ++ ⟨s1, .import_, e1⟩ :: w2) rfl hd d2
      have e : s.wrap q2 (NodeImportDeclarations.mk (prev.node.importList ++ [v2])) =
          ⟨⟨prev.node.importList ++ [v2]⟩, s1, stopOf (w ++ ⟨s1, .import_, e1⟩ :: w2)⟩ := by
        rw [ok2.wrap (by simp), mkW]
        simp [startOf, stopOf, stopFrom_append, stopFrom]
      rw [e]; exact this
    · obtain ⟨rfl, rfl⟩ := some_pair h
      exact ⟨w, hok, hd⟩

theorem pImportDecls_sound (hr : Sound r) {s s' : PS} {v : Val .importDecls}
    (h : pImportDecls r s = some (v, s')) : ∃ w, Ok s w s' ∧ Derives .importDecls w v := by
  simp only [pImportDecls] at h
  obtain ⟨⟨v1, q1⟩, h1, h⟩ := bind_some h
  dsimp only at h
  obtain ⟨⟨v2, q2⟩, h2, h⟩ := bind_some h
  dsimp only at h
  obtain ⟨s1, e1, k1⟩ := expect_ok rfl h1
  obtain ⟨w2, k2, d2⟩ := hr _ _ _ _ h2
  have ok2 : Ok s (⟨s1, .import_, e1⟩ :: w2) q2 := k1.trans k2
  refine importLoop_sound hr _ s q2 s' _ _ v ok2 ?_ h
  rw [ok2.wrap (by simp)]
  exact .importFirst rfl d2

theorem star_inv {n : NT} {w : List STok} {vs : List (Val n)} (h : Derives (.star n) w vs) :
    (w = [] ∧ vs = []) ∨
    ∃ w1 w2 v us, w = w1 ++ w2 ∧ vs = v :: us ∧ Derives n w1 v ∧ Derives (.star n) w2 us := by
  cases h with
  | starNil => exact .inl ⟨rfl, rfl⟩
  | starCons h1 h2 => exact .inr ⟨_, _, _, _, rfl, rfl, h1, h2⟩

theorem builtin_extend : ∀ {xs : List (W NodeVariableIdentifier)} {w1 w2 : List STok}
    {prev : W NodeBuiltinArguments} (_ : Derives .builtinArgs w1 prev)
    (_ : Derives (.star .varId) w2 xs) (_ : prev = mkW w1 prev.node),
    Derives .builtinArgs (w1 ++ w2) (mkW (w1 ++ w2) ⟨prev.node.arguments ++ xs⟩) := by
  intro xs
  induction xs with
  | nil =>
    intro w1 w2 prev h1 h2 hp
    rcases star_inv h2 with ⟨rfl, _⟩ | ⟨_, _, _, _, _, h, _⟩
    · simp only [List.append_nil]
      rw [hp] at h1
      exact h1
    · cases h
  | cons x xs ih =>
    intro w1 w2 prev h1 h2 hp
    rcases star_inv h2 with ⟨_, h⟩ | ⟨u1, u2, v, us, rfl, h, d1, d2⟩
    · cases h
    · injection h with ha hb; subst ha; subst hb
      have := ih (Derives.builtinMore (w := w1 ++ u1) rfl h1 d1) d2 rfl
      simpa [mkW] using this

theorem plus_inv {n : NT} {w : List STok} {vs : List (Val n)} (h : Derives (.plus n) w vs) :
    ∃ w1 w2 v us, w = w1 ++ w2 ∧ vs = v :: us ∧ Derives n w1 v ∧ Derives (.star n) w2 us := by
  cases h with
  | plusIntro h1 h2 => exact ⟨_, _, _, _, rfl, rfl, h1, h2⟩

theorem pBuiltinArgs_sound (hr : Sound r) {s s' : PS} {v : Val .builtinArgs}
    (h : pBuiltinArgs r s = some (v, s')) : ∃ w, Ok s w s' ∧ Derives .builtinArgs w v := by
  simp only [pBuiltinArgs] at h
  split at h
  · obtain ⟨⟨v1, q1⟩, h1, h⟩ := bind_some h
    dsimp only at h
    obtain ⟨⟨v2, q2⟩, h2, h⟩ := bind_some h
    dsimp only at h
    obtain ⟨⟨v3, q3⟩, h3, h⟩ := bind_some h
    dsimp only at h
    obtain ⟨rfl, rfl⟩ := some_pair h
    obtain ⟨s1, e1, k1⟩ := expect_ok rfl h1
    obtain ⟨s2, e2, k2⟩ := expect_ok rfl h2
    obtain ⟨w3, k3, d3⟩ := hr _ _ _ _ h3
    have ok : Ok s ([⟨s1, .openParen, e1⟩, ⟨s2, .closeParen, e2⟩] ++ w3) _ := k1.trans (k2.trans k3)
    refine ⟨_, ok, ?_⟩
    rw [ok.wrap (by simp)]
    have := builtin_extend (Derives.builtinUnit (w := [⟨s1, .openParen, e1⟩, ⟨s2, .closeParen, e2⟩]) rfl) d3 rfl
    simpa [mkW] using this
  · obtain ⟨⟨v1, q1⟩, h1, h⟩ := bind_some h
    dsimp only at h
    obtain ⟨rfl, rfl⟩ := some_pair h
    obtain ⟨w, ok, d⟩ := hr _ _ _ _ h1
    refine ⟨w, ok, ?_⟩
    rw [ok.wrap (d.ne_nil rfl)]
    obtain ⟨w1, w2, x, us, rfl, rfl, d1, d2⟩ := plus_inv d
    exact builtin_extend (Derives.builtinOne d1) d2 rfl

theorem typeFun_of {w1 w2 : List STok} {a b : W NodeScillaType} {s1 e1 : Pos}
    (h1 : Derives .remaining w1 a) (h2 : Derives .scillaType w2 b) :
    Derives .funSig (w1 ++ ⟨s1, .arrow, e1⟩ :: w2)
      (mkW (w1 ++ ⟨s1, .arrow, e1⟩ :: w2) (.functionType a b)) := by
  cases h2 with
  | typeFun h2 => exact .funSigMore rfl h1 h2
  | typeRem h2 => exact .funSigLast rfl h1 h2

theorem pFunSig_sound (hr : Sound r) {s s' : PS} {v : Val .funSig}
    (h : pFunSig r s = some (v, s')) : ∃ w, Ok s w s' ∧ Derives .funSig w v := by
  simp only [pFunSig] at h
  obtain ⟨⟨v1, q1⟩, h1, h⟩ := bind_some h
  dsimp only at h
  obtain ⟨⟨v2, q2⟩, h2, h⟩ := bind_some h
  dsimp only at h
  obtain ⟨⟨v3, q3⟩, h3, h⟩ := bind_some h
  dsimp only at h
  obtain ⟨rfl, rfl⟩ := some_pair h
  obtain ⟨w1, k1, d1⟩ := hr _ _ _ _ h1
  obtain ⟨s2, e2, k2⟩ := expect_ok rfl h2
  obtain ⟨w3, k3, d3⟩ := hr _ _ _ _ h3
  have ok : Ok s (w1 ++ ⟨s2, .arrow, e2⟩ :: w3) _ := k1.trans (k2.trans k3)
  refine ⟨_, ok, ?_⟩
  rw [ok.wrap (by simp)]
  exact typeFun_of d1 d3

theorem pScillaType_sound (hr : Sound r) {s s' : PS} {v : Val .scillaType}
    (h : pScillaType r s = some (v, s')) : ∃ w, Ok s w s' ∧ Derives .scillaType w v := by
  simp only [pScillaType] at h
  obtain ⟨⟨v1, q1⟩, h1, h⟩ := bind_some h
  dsimp only at h
  obtain ⟨w1, k1, d1⟩ := hr _ _ _ _ h1
  split at h
  · obtain ⟨⟨v2, q2⟩, h2, h⟩ := bind_some h
    dsimp only at h
    obtain ⟨⟨v3, q3⟩, h3, h⟩ := bind_some h
    dsimp only at h
    obtain ⟨rfl, rfl⟩ := some_pair h
    obtain ⟨s2, e2, k2⟩ := expect_ok rfl h2
    obtain ⟨w3, k3, d3⟩ := hr _ _ _ _ h3
    have ok : Ok s (w1 ++ ⟨s2, .arrow, e2⟩ :: w3) _ := k1.trans (k2.trans k3)
    refine ⟨_, ok, ?_⟩
    rw [ok.wrap (by simp)]
    exact .typeFun (typeFun_of d1 d3)
  · obtain ⟨rfl, rfl⟩ := some_pair h
    exact ⟨w1, k1, .typeRem d1⟩

theorem pStar_sound (hr : Sound r) {n : NT} {s s' : PS} {v : Val (.star n)}
    (h : pStar r n s = some (v, s')) : ∃ w, Ok s w s' ∧ Derives (.star n) w v := by
  simp only [pStar] at h
  split at h
  · obtain ⟨⟨v1, q1⟩, h1, h⟩ := bind_some h
    dsimp only at h
    obtain ⟨⟨v2, q2⟩, h2, h⟩ := bind_some h
    dsimp only at h
    obtain ⟨rfl, rfl⟩ := some_pair h
    obtain ⟨w1, k1, d1⟩ := hr _ _ _ _ h1
    obtain ⟨w2, k2, d2⟩ := hr _ _ _ _ h2
    exact ⟨_, k1.trans k2, .starCons d1 d2⟩
  · obtain ⟨rfl, rfl⟩ := some_pair h
    exact ⟨[], Ok.refl _, .starNil⟩

theorem pPlus_sound (hr : Sound r) {n : NT} {s s' : PS} {v : Val (.plus n)}
    (h : pPlus r n s = some (v, s')) : ∃ w, Ok s w s' ∧ Derives (.plus n) w v := by
  simp only [pPlus] at h
  obtain ⟨⟨v1, q1⟩, h1, h⟩ := bind_some h
  dsimp only at h
  obtain ⟨⟨v2, q2⟩, h2, h⟩ := bind_some h
  dsimp only at h
  obtain ⟨rfl, rfl⟩ := some_pair h
  obtain ⟨w1, k1, d1⟩ := hr _ _ _ _ h1
  obtain ⟨w2, k2, d2⟩ := hr _ _ _ _ h2
  exact ⟨_, k1.trans k2, .plusIntro d1 d2⟩

theorem pOpt_sound (hr : Sound r) {n : NT} {s s' : PS} {v : Val (.opt n)}
    (h : pOpt r n s = some (v, s')) : ∃ w, Ok s w s' ∧ Derives (.opt n) w v := by
  simp only [pOpt] at h
  split at h
  · obtain ⟨⟨v1, q1⟩, h1, h⟩ := bind_some h
    dsimp only at h
    obtain ⟨rfl, rfl⟩ := some_pair h
    obtain ⟨w1, k1, d1⟩ := hr _ _ _ _ h1
    exact ⟨_, k1, .optSome d1⟩
  · obtain ⟨rfl, rfl⟩ := some_pair h
    exact ⟨[], Ok.refl _, .optNone⟩

theorem pTypeName_sound (hr : Sound r) {s s' : PS} {v : Val .typeName}
    (h : pTypeName r s = some (v, s')) : ∃ w, Ok s w s' ∧ Derives .typeName w v := by
  simp only [pTypeName] at h
  rcases ite_or h with ⟨_, h⟩ | ⟨_, h⟩
  · skip
    obtain ⟨⟨v1, q1⟩, h1, h⟩ := bind_some h
    dsimp only at h
    obtain ⟨rfl, rfl⟩ := some_pair h
    obtain ⟨w, k1, d1⟩ := hr _ _ _ _ h1
    have ok : Ok s (w) q1 := by
      have := k1
      simpa only [List.append_assoc, List.cons_append, List.nil_append] using this
    refine ⟨_, ok, ?_⟩
    simp only [ok.wrap (by simp [d1.ne_nil rfl])]
    exact .typeNameBytes d1
  · skip
    rcases ite_or h with ⟨_, h⟩ | ⟨_, h⟩
    · skip
      obtain ⟨⟨v1, q1⟩, h1, h⟩ := bind_some h
      dsimp only at h
      obtain ⟨rfl, rfl⟩ := some_pair h
      obtain ⟨a0, b0, k1⟩ := expect_ok rfl h1
      have ok : Ok s ([⟨a0, .eventType, b0⟩]) q1 := by
        have := k1
        simpa only [List.append_assoc, List.cons_append, List.nil_append] using this
      refine ⟨_, ok, ?_⟩
      simp only [ok.wrap (by simp)]
      exact .typeNameEvent rfl
    · skip
      obtain ⟨⟨v1, q1⟩, h1, h⟩ := bind_some h
      dsimp only at h
      obtain ⟨rfl, rfl⟩ := some_pair h
      obtain ⟨w, k1, d1⟩ := hr _ _ _ _ h1
      have ok : Ok s (w) q1 := by
        have := k1
        simpa only [List.append_assoc, List.cons_append, List.nil_append] using this
      refine ⟨_, ok, ?_⟩
      simp only [ok.wrap (by simp [d1.ne_nil rfl])]
      exact .typeNameCustom d1

theorem pImportedName_sound (hr : Sound r) {s s' : PS} {v : Val .importedName}
    (h : pImportedName r s = some (v, s')) : ∃ w, Ok s w s' ∧ Derives .importedName w v := by
  simp only [pImportedName] at h
  obtain ⟨⟨v1, q1⟩, h1, h⟩ := bind_some h
  dsimp only at h
  rcases ite_or h with ⟨_, h⟩ | ⟨_, h⟩
  · skip
    obtain ⟨⟨v2, q2⟩, h2, h⟩ := bind_some h
    dsimp only at h
    obtain ⟨⟨v3, q3⟩, h3, h⟩ := bind_some h
    dsimp only at h
    obtain ⟨rfl, rfl⟩ := some_pair h
    obtain ⟨w1, k1, d1⟩ := hr _ _ _ _ h1
    obtain ⟨a1, b1, k2⟩ := expect_ok rfl h2
    obtain ⟨w2, k3, d3⟩ := hr _ _ _ _ h3
    have ok : Ok s (w1 ++ ⟨a1, .as_, b1⟩ :: w2) q3 := by
      have := k1.trans (k2.trans (k3))
      simpa only [List.append_assoc, List.cons_append, List.nil_append] using this
    refine ⟨_, ok, ?_⟩
    simp only [ok.wrap (by simp)]
    exact .importedAliased rfl d1 d3
  · skip
    obtain ⟨rfl, rfl⟩ := some_pair h
    obtain ⟨w, k1, d1⟩ := hr _ _ _ _ h1
    have ok : Ok s (w) q1 := by
      have := k1
      simpa only [List.append_assoc, List.cons_append, List.nil_append] using this
    refine ⟨_, ok, ?_⟩
    simp only [ok.wrap (by simp [d1.ne_nil rfl])]
    exact .importedRegular d1

theorem pMetaId_sound (hr : Sound r) {s s' : PS} {v : Val .metaId}
    (h : pMetaId r s = some (v, s')) : ∃ w, Ok s w s' ∧ Derives .metaId w v := by
  simp only [pMetaId] at h
  rcases ite_or h with ⟨_, h⟩ | ⟨_, h⟩
  · skip
    obtain ⟨⟨v1, q1⟩, h1, h⟩ := bind_some h
    dsimp only at h
    obtain ⟨rfl, rfl⟩ := some_pair h
    obtain ⟨a0, b0, k1⟩ := expect_ok rfl h1
    have ok : Ok s ([⟨a0, .byStr, b0⟩]) q1 := by
      have := k1
      simpa only [List.append_assoc, List.cons_append, List.nil_append] using this
    refine ⟨_, ok, ?_⟩
    simp only [ok.wrap (by simp)]
    exact .metaByStr rfl
  · skip
    rcases ite_or h with ⟨_, h⟩ | ⟨_, h⟩
    · skip
      obtain ⟨⟨v1, q1⟩, h1, h⟩ := bind_some h
      dsimp only at h
      obtain ⟨⟨v2, q2⟩, h2, h⟩ := bind_some h
      dsimp only at h
      obtain ⟨⟨v3, q3⟩, h3, h⟩ := bind_some h
      dsimp only at h
      obtain ⟨rfl, rfl⟩ := some_pair h
      obtain ⟨w1, k1, d1⟩ := hr _ _ _ _ h1
      obtain ⟨a1, b1, k2⟩ := expect_ok rfl h2
      obtain ⟨w2, k3, d3⟩ := hr _ _ _ _ h3
      have ok : Ok s (w1 ++ ⟨a1, .dot, b1⟩ :: w2) q3 := by
        have := k1.trans (k2.trans (k3))
        simpa only [List.append_assoc, List.cons_append, List.nil_append] using this
      refine ⟨_, ok, ?_⟩
      simp only [ok.wrap (by simp)]
      exact .metaHexspace rfl d1 d3
    · skip
      obtain ⟨⟨v1, q1⟩, h1, h⟩ := bind_some h
      dsimp only at h
      rcases ite_or h with ⟨_, h⟩ | ⟨_, h⟩
      · skip
        obtain ⟨⟨v2, q2⟩, h2, h⟩ := bind_some h
        dsimp only at h
        obtain ⟨⟨v3, q3⟩, h3, h⟩ := bind_some h
        dsimp only at h
        obtain ⟨rfl, rfl⟩ := some_pair h
        obtain ⟨w1, k1, d1⟩ := hr _ _ _ _ h1
        obtain ⟨a1, b1, k2⟩ := expect_ok rfl h2
        obtain ⟨w2, k3, d3⟩ := hr _ _ _ _ h3
        have ok : Ok s (w1 ++ ⟨a1, .dot, b1⟩ :: w2) q3 := by
          have := k1.trans (k2.trans (k3))
          simpa only [List.append_assoc, List.cons_append, List.nil_append] using this
        refine ⟨_, ok, ?_⟩
        simp only [ok.wrap (by simp)]
        exact .metaNamespace rfl d1 d3
      · skip
        obtain ⟨rfl, rfl⟩ := some_pair h
        obtain ⟨w, k1, d1⟩ := hr _ _ _ _ h1
        have ok : Ok s (w) q1 := by
          have := k1
          simpa only [List.append_assoc, List.cons_append, List.nil_append] using this
        refine ⟨_, ok, ?_⟩
        simp only [ok.wrap (by simp [d1.ne_nil rfl])]
        exact .metaName d1

theorem pVarId_sound (hr : Sound r) {s s' : PS} {v : Val .varId}
    (h : pVarId r s = some (v, s')) : ∃ w, Ok s w s' ∧ Derives .varId w v := by
  simp only [pVarId] at h
  rcases ite_or h with ⟨_, h⟩ | ⟨_, h⟩
  · skip
    obtain ⟨⟨v1, q1⟩, h1, h⟩ := bind_some h
    dsimp only at h
    obtain ⟨rfl, rfl⟩ := some_pair h
    obtain ⟨w, k1, d1⟩ := hr _ _ _ _ h1
    have ok : Ok s (w) q1 := by
      have := k1
      simpa only [List.append_assoc, List.cons_append, List.nil_append] using this
    refine ⟨_, ok, ?_⟩
    simp only [ok.wrap (by simp [d1.ne_nil rfl])]
    exact .varName d1
  · skip
    rcases ite_or h with ⟨_, h⟩ | ⟨_, h⟩
    · skip
      obtain ⟨⟨v1, q1⟩, h1, h⟩ := bind_some h
      dsimp only at h
      obtain ⟨rfl, rfl⟩ := some_pair h
      obtain ⟨w, k1, d1⟩ := hr _ _ _ _ h1
      have ok : Ok s (w) q1 := by
        have := k1
        simpa only [List.append_assoc, List.cons_append, List.nil_append] using this
      refine ⟨_, ok, ?_⟩
      simp only [ok.wrap (by simp [d1.ne_nil rfl])]
      exact .varSpecial d1
    · skip
      obtain ⟨⟨v1, q1⟩, h1, h⟩ := bind_some h
      dsimp only at h
      obtain ⟨⟨v2, q2⟩, h2, h⟩ := bind_some h
      dsimp only at h
      obtain ⟨⟨v3, q3⟩, h3, h⟩ := bind_some h
      dsimp only at h
      obtain ⟨rfl, rfl⟩ := some_pair h
      obtain ⟨w1, k1, d1⟩ := hr _ _ _ _ h1
      obtain ⟨a1, b1, k2⟩ := expect_ok rfl h2
      obtain ⟨w2, k3, d3⟩ := hr _ _ _ _ h3
      have ok : Ok s (w1 ++ ⟨a1, .dot, b1⟩ :: w2) q3 := by
        have := k1.trans (k2.trans (k3))
        simpa only [List.append_assoc, List.cons_append, List.nil_append] using this
      refine ⟨_, ok, ?_⟩
      simp only [ok.wrap (by simp)]
      exact .varNamespace rfl d1 d3

theorem pRemaining_sound (hr : Sound r) {s s' : PS} {v : Val .remaining}
    (h : pRemaining r s = some (v, s')) : ∃ w, Ok s w s' ∧ Derives .remaining w v := by
  simp only [pRemaining] at h
  rcases ite_or h with ⟨_, h⟩ | ⟨_, h⟩
  · skip
    obtain ⟨⟨v1, q1⟩, h1, h⟩ := bind_some h
    dsimp only at h
    obtain ⟨⟨v2, q2⟩, h2, h⟩ := bind_some h
    dsimp only at h
    obtain ⟨⟨v3, q3⟩, h3, h⟩ := bind_some h
    dsimp only at h
    obtain ⟨rfl, rfl⟩ := some_pair h
    obtain ⟨a1, b1, k1⟩ := expect_ok rfl h1
    obtain ⟨w1, k2, d2⟩ := hr _ _ _ _ h2
    obtain ⟨w2, k3, d3⟩ := hr _ _ _ _ h3
    have ok : Ok s (⟨a1, .map, b1⟩ :: (w1 ++ w2)) q3 := by
      have := k1.trans (k2.trans (k3))
      simpa only [List.append_assoc, List.cons_append, List.nil_append] using this
    refine ⟨_, ok, ?_⟩
    simp only [ok.wrap (by simp)]
    exact .remMap rfl d2 d3
  · skip
    rcases ite_or h with ⟨_, h⟩ | ⟨_, h⟩
    · skip
      obtain ⟨⟨v1, q1⟩, h1, h⟩ := bind_some h
      dsimp only at h
      obtain ⟨⟨v2, q2⟩, h2, h⟩ := bind_some h
      dsimp only at h
      obtain ⟨⟨v3, q3⟩, h3, h⟩ := bind_some h
      dsimp only at h
      obtain ⟨rfl, rfl⟩ := some_pair h
      obtain ⟨a1, b1, k1⟩ := expect_ok rfl h1
      obtain ⟨w1, k2, d2⟩ := hr _ _ _ _ h2
      obtain ⟨a2, b2, k3⟩ := expect_ok rfl h3
      have ok : Ok s (⟨a1, .openParen, b1⟩ :: (w1 ++ [⟨a2, .closeParen, b2⟩])) q3 := by
        have := k1.trans (k2.trans (k3))
        simpa only [List.append_assoc, List.cons_append, List.nil_append] using this
      refine ⟨_, ok, ?_⟩
      simp only [ok.wrap (by simp)]
      exact .remParen rfl d2
    · skip
      rcases ite_or h with ⟨_, h⟩ | ⟨_, h⟩
      · skip
        obtain ⟨⟨v1, q1⟩, h1, h⟩ := bind_some h
        dsimp only at h
        obtain ⟨⟨v2, q2⟩, h2, h⟩ := bind_some h
        dsimp only at h
        obtain ⟨⟨v3, q3⟩, h3, h⟩ := bind_some h
        dsimp only at h
        obtain ⟨⟨v4, q4⟩, h4, h⟩ := bind_some h
        dsimp only at h
        obtain ⟨rfl, rfl⟩ := some_pair h
        obtain ⟨a1, b1, k1⟩ := expect_ok rfl h1
        obtain ⟨w1, k2, d2⟩ := hr _ _ _ _ h2
        obtain ⟨a2, b2, k3⟩ := expect_ok rfl h3
        obtain ⟨w2, k4, d4⟩ := hr _ _ _ _ h4
        have ok : Ok s (⟨a1, .forall_, b1⟩ :: (w1 ++ ⟨a2, .dot, b2⟩ :: w2)) q4 := by
          have := k1.trans (k2.trans (k3.trans (k4)))
          simpa only [List.append_assoc, List.cons_append, List.nil_append] using this
        refine ⟨_, ok, ?_⟩
        simp only [ok.wrap (by simp)]
        exact .remForall rfl d2 d4
      · skip
        rcases ite_or h with ⟨_, h⟩ | ⟨_, h⟩
        · skip
          obtain ⟨⟨v1, q1⟩, h1, h⟩ := bind_some h
          dsimp only at h
          obtain ⟨rfl, rfl⟩ := some_pair h
          obtain ⟨w, k1, d1⟩ := hr _ _ _ _ h1
          have ok : Ok s (w) q1 := by
            have := k1
            simpa only [List.append_assoc, List.cons_append, List.nil_append] using this
          refine ⟨_, ok, ?_⟩
          simp only [ok.wrap (by simp [d1.ne_nil rfl])]
          exact .remTypeVar d1
        · skip
          rcases ite_or h with ⟨_, h⟩ | ⟨_, h⟩
          · skip
            obtain ⟨⟨v1, q1⟩, h1, h⟩ := bind_some h
            dsimp only at h
            obtain ⟨rfl, rfl⟩ := some_pair h
            obtain ⟨w, k1, d1⟩ := hr _ _ _ _ h1
            have ok : Ok s (w) q1 := by
              have := k1
              simpa only [List.append_assoc, List.cons_append, List.nil_append] using this
            refine ⟨_, ok, ?_⟩
            simp only [ok.wrap (by simp [d1.ne_nil rfl])]
            exact .remAddress d1
          · skip
            obtain ⟨⟨v1, q1⟩, h1, h⟩ := bind_some h
            dsimp only at h
            obtain ⟨⟨v2, q2⟩, h2, h⟩ := bind_some h
            dsimp only at h
            obtain ⟨rfl, rfl⟩ := some_pair h
            obtain ⟨w1, k1, d1⟩ := hr _ _ _ _ h1
            obtain ⟨w2, k2, d2⟩ := hr _ _ _ _ h2
            have ok : Ok s (w1 ++ w2) q2 := by
              have := k1.trans (k2)
              simpa only [List.append_assoc, List.cons_append, List.nil_append] using this
            refine ⟨_, ok, ?_⟩
            simp only [ok.wrap (by simp [d1.ne_nil rfl])]
            exact .remGeneric rfl d1 d2

theorem pTypeArg_sound (hr : Sound r) {s s' : PS} {v : Val .typeArg}
    (h : pTypeArg r s = some (v, s')) : ∃ w, Ok s w s' ∧ Derives .typeArg w v := by
  simp only [pTypeArg] at h
  rcases ite_or h with ⟨_, h⟩ | ⟨_, h⟩
  · skip
    obtain ⟨⟨v1, q1⟩, h1, h⟩ := bind_some h
    dsimp only at h
    obtain ⟨⟨v2, q2⟩, h2, h⟩ := bind_some h
    dsimp only at h
    obtain ⟨⟨v3, q3⟩, h3, h⟩ := bind_some h
    dsimp only at h
    obtain ⟨rfl, rfl⟩ := some_pair h
    obtain ⟨a1, b1, k1⟩ := expect_ok rfl h1
    obtain ⟨w1, k2, d2⟩ := hr _ _ _ _ h2
    obtain ⟨w2, k3, d3⟩ := hr _ _ _ _ h3
    have ok : Ok s (⟨a1, .map, b1⟩ :: (w1 ++ w2)) q3 := by
      have := k1.trans (k2.trans (k3))
      simpa only [List.append_assoc, List.cons_append, List.nil_append] using this
    refine ⟨_, ok, ?_⟩
    simp only [ok.wrap (by simp)]
    exact .argMap rfl d2 d3
  · skip
    rcases ite_or h with ⟨_, h⟩ | ⟨_, h⟩
    · skip
      obtain ⟨⟨v1, q1⟩, h1, h⟩ := bind_some h
      dsimp only at h
      obtain ⟨⟨v2, q2⟩, h2, h⟩ := bind_some h
      dsimp only at h
      obtain ⟨⟨v3, q3⟩, h3, h⟩ := bind_some h
      dsimp only at h
      obtain ⟨rfl, rfl⟩ := some_pair h
      obtain ⟨a1, b1, k1⟩ := expect_ok rfl h1
      obtain ⟨w1, k2, d2⟩ := hr _ _ _ _ h2
      obtain ⟨a2, b2, k3⟩ := expect_ok rfl h3
      have ok : Ok s (⟨a1, .openParen, b1⟩ :: (w1 ++ [⟨a2, .closeParen, b2⟩])) q3 := by
        have := k1.trans (k2.trans (k3))
        simpa only [List.append_assoc, List.cons_append, List.nil_append] using this
      refine ⟨_, ok, ?_⟩
      simp only [ok.wrap (by simp)]
      exact .argParen rfl d2
    · skip
      rcases ite_or h with ⟨_, h⟩ | ⟨_, h⟩
      · skip
        obtain ⟨⟨v1, q1⟩, h1, h⟩ := bind_some h
        dsimp only at h
        obtain ⟨rfl, rfl⟩ := some_pair h
        obtain ⟨w, k1, d1⟩ := hr _ _ _ _ h1
        have ok : Ok s (w) q1 := by
          have := k1
          simpa only [List.append_assoc, List.cons_append, List.nil_append] using this
        refine ⟨_, ok, ?_⟩
        simp only [ok.wrap (by simp [d1.ne_nil rfl])]
        exact .argTemplate d1
      · skip
        rcases ite_or h with ⟨_, h⟩ | ⟨_, h⟩
        · skip
          obtain ⟨⟨v1, q1⟩, h1, h⟩ := bind_some h
          dsimp only at h
          obtain ⟨rfl, rfl⟩ := some_pair h
          obtain ⟨w, k1, d1⟩ := hr _ _ _ _ h1
          have ok : Ok s (w) q1 := by
            have := k1
            simpa only [List.append_assoc, List.cons_append, List.nil_append] using this
          refine ⟨_, ok, ?_⟩
          simp only [ok.wrap (by simp [d1.ne_nil rfl])]
          exact .argAddress d1
        · skip
          obtain ⟨⟨v1, q1⟩, h1, h⟩ := bind_some h
          dsimp only at h
          obtain ⟨rfl, rfl⟩ := some_pair h
          obtain ⟨w, k1, d1⟩ := hr _ _ _ _ h1
          have ok : Ok s (w) q1 := by
            have := k1
            simpa only [List.append_assoc, List.cons_append, List.nil_append] using this
          refine ⟨_, ok, ?_⟩
          simp only [ok.wrap (by simp [d1.ne_nil rfl])]
          exact .argMeta d1

theorem pAddressType_sound (hr : Sound r) {s s' : PS} {v : Val .addressType}
    (h : pAddressType r s = some (v, s')) : ∃ w, Ok s w s' ∧ Derives .addressType w v := by
  simp only [pAddressType] at h
  obtain ⟨⟨v1, q1⟩, h1, h⟩ := bind_some h
  dsimp only at h
  obtain ⟨⟨v2, q2⟩, h2, h⟩ := bind_some h
  dsimp only at h
  rcases ite_or h with ⟨_, h⟩ | ⟨_, h⟩
  · skip
    obtain ⟨⟨v3, q3⟩, h3, h⟩ := bind_some h
    dsimp only at h
    obtain ⟨rfl, rfl⟩ := some_pair h
    obtain ⟨w1, k1, d1⟩ := hr _ _ _ _ h1
    obtain ⟨a1, b1, k2⟩ := expect_ok rfl h2
    obtain ⟨a2, b2, k3⟩ := expect_ok rfl h3
    have ok : Ok s (w1 ++ [⟨a1, .with_, b1⟩, ⟨a2, .end_, b2⟩]) q3 := by
      have := k1.trans (k2.trans (k3))
      simpa only [List.append_assoc, List.cons_append, List.nil_append] using this
    refine ⟨_, ok, ?_⟩
    simp only [ok.wrap (by simp)]
    exact .addrEmpty rfl d1
  · skip
    rcases ite_or h with ⟨_, h⟩ | ⟨_, h⟩
    · skip
      obtain ⟨⟨v3, q3⟩, h3, h⟩ := bind_some h
      dsimp only at h
      obtain ⟨⟨v4, q4⟩, h4, h⟩ := bind_some h
      dsimp only at h
      obtain ⟨⟨v5, q5⟩, h5, h⟩ := bind_some h
      dsimp only at h
      obtain ⟨rfl, rfl⟩ := some_pair h
      obtain ⟨w1, k1, d1⟩ := hr _ _ _ _ h1
      obtain ⟨a1, b1, k2⟩ := expect_ok rfl h2
      obtain ⟨a2, b2, k3⟩ := expect_ok rfl h3
      obtain ⟨w2, k4, d4⟩ := hr _ _ _ _ h4
      obtain ⟨a3, b3, k5⟩ := expect_ok rfl h5
      have ok : Ok s (w1 ++ ⟨a1, .with_, b1⟩ :: ⟨a2, .contract, b2⟩ :: (w2 ++ [⟨a3, .end_, b3⟩])) q5 := by
        have := k1.trans (k2.trans (k3.trans (k4.trans (k5))))
        simpa only [List.append_assoc, List.cons_append, List.nil_append] using this
      refine ⟨_, ok, ?_⟩
      simp only [ok.wrap (by simp)]
      exact .addrContract rfl d1 d4
    · skip
      rcases ite_or h with ⟨_, h⟩ | ⟨_, h⟩
      · skip
        obtain ⟨⟨v3, q3⟩, h3, h⟩ := bind_some h
        dsimp only at h
        obtain ⟨⟨v4, q4⟩, h4, h⟩ := bind_some h
        dsimp only at h
        obtain ⟨rfl, rfl⟩ := some_pair h
        obtain ⟨w1, k1, d1⟩ := hr _ _ _ _ h1
        obtain ⟨a1, b1, k2⟩ := expect_ok rfl h2
        obtain ⟨a2, b2, k3⟩ := expect_ok rfl h3
        obtain ⟨a3, b3, k4⟩ := expect_ok rfl h4
        have ok : Ok s (w1 ++ [⟨a1, .with_, b1⟩, ⟨a2, .library, b2⟩, ⟨a3, .end_, b3⟩]) q4 := by
          have := k1.trans (k2.trans (k3.trans (k4)))
          simpa only [List.append_assoc, List.cons_append, List.nil_append] using this
        refine ⟨_, ok, ?_⟩
        simp only [ok.wrap (by simp)]
        exact .addrLibrary rfl d1
      · skip
        obtain ⟨⟨v3, q3⟩, h3, h⟩ := bind_some h
        dsimp only at h
        obtain ⟨⟨v4, q4⟩, h4, h⟩ := bind_some h
        dsimp only at h
        obtain ⟨rfl, rfl⟩ := some_pair h
        obtain ⟨w1, k1, d1⟩ := hr _ _ _ _ h1
        obtain ⟨a1, b1, k2⟩ := expect_ok rfl h2
        obtain ⟨w2, k3, d3⟩ := hr _ _ _ _ h3
        obtain ⟨a2, b2, k4⟩ := expect_ok rfl h4
        have ok : Ok s (w1 ++ ⟨a1, .with_, b1⟩ :: (w2 ++ [⟨a2, .end_, b2⟩])) q4 := by
          have := k1.trans (k2.trans (k3.trans (k4)))
          simpa only [List.append_assoc, List.cons_append, List.nil_append] using this
        refine ⟨_, ok, ?_⟩
        simp only [ok.wrap (by simp)]
        exact .addrSpecial rfl d1 d3

theorem pAddressFieldList_sound (hr : Sound r) {s s' : PS} {v : Val .addressFieldList}
    (h : pAddressFieldList r s = some (v, s')) : ∃ w, Ok s w s' ∧ Derives .addressFieldList w v := by
  simp only [pAddressFieldList] at h
  obtain ⟨⟨v1, q1⟩, h1, h⟩ := bind_some h
  dsimp only at h
  obtain ⟨⟨v2, q2⟩, h2, h⟩ := bind_some h
  dsimp only at h
  obtain ⟨rfl, rfl⟩ := some_pair h
  obtain ⟨w1, k1, d1⟩ := hr _ _ _ _ h1
  obtain ⟨w2, k2, d2⟩ := hr _ _ _ _ h2
  have ok : Ok s (w1 ++ w2) q2 := by
    have := k1.trans (k2)
    simpa only [List.append_assoc, List.cons_append, List.nil_append] using this
  refine ⟨_, ok, ?_⟩
  exact .addrFieldList rfl d1 d2

theorem pNextAddressField_sound (hr : Sound r) {s s' : PS} {v : Val .nextAddressField}
    (h : pNextAddressField r s = some (v, s')) : ∃ w, Ok s w s' ∧ Derives .nextAddressField w v := by
  simp only [pNextAddressField] at h
  obtain ⟨⟨v1, q1⟩, h1, h⟩ := bind_some h
  dsimp only at h
  have h2 := h
  obtain ⟨a1, b1, k1⟩ := expect_ok rfl h1
  obtain ⟨w1, k2, d2⟩ := hr _ _ _ _ h2
  have ok : Ok s (⟨a1, .comma, b1⟩ :: w1) s' := by
    have := k1.trans (k2)
    simpa only [List.append_assoc, List.cons_append, List.nil_append] using this
  refine ⟨_, ok, ?_⟩
  exact .nextAddrField rfl d2

theorem pAddressField_sound (hr : Sound r) {s s' : PS} {v : Val .addressField}
    (h : pAddressField r s = some (v, s')) : ∃ w, Ok s w s' ∧ Derives .addressField w v := by
  simp only [pAddressField] at h
  obtain ⟨⟨v1, q1⟩, h1, h⟩ := bind_some h
  dsimp only at h
  obtain ⟨⟨v2, q2⟩, h2, h⟩ := bind_some h
  dsimp only at h
  obtain ⟨⟨v3, q3⟩, h3, h⟩ := bind_some h
  dsimp only at h
  obtain ⟨⟨v4, q4⟩, h4, h⟩ := bind_some h
  dsimp only at h
  obtain ⟨rfl, rfl⟩ := some_pair h
  obtain ⟨a1, b1, k1⟩ := expect_ok rfl h1
  obtain ⟨w1, k2, d2⟩ := hr _ _ _ _ h2
  obtain ⟨a2, b2, k3⟩ := expect_ok rfl h3
  obtain ⟨w2, k4, d4⟩ := hr _ _ _ _ h4
  have ok : Ok s (⟨a1, .field, b1⟩ :: (w1 ++ ⟨a2, .colon, b2⟩ :: w2)) q4 := by
    have := k1.trans (k2.trans (k3.trans (k4)))
    simpa only [List.append_assoc, List.cons_append, List.nil_append] using this
  refine ⟨_, ok, ?_⟩
  simp only [ok.wrap (by simp)]
  exact .addrField rfl d2 d4

theorem pMapKey_sound (hr : Sound r) {s s' : PS} {v : Val .mapKey}
    (h : pMapKey r s = some (v, s')) : ∃ w, Ok s w s' ∧ Derives .mapKey w v := by
  simp only [pMapKey] at h
  rcases ite_or h with ⟨_, h⟩ | ⟨_, h⟩
  · skip
    obtain ⟨⟨v1, q1⟩, h1, h⟩ := bind_some h
    dsimp only at h
    rcases ite_or h with ⟨_, h⟩ | ⟨_, h⟩
    · skip
      obtain ⟨⟨v2, q2⟩, h2, h⟩ := bind_some h
      dsimp only at h
      obtain ⟨⟨v3, q3⟩, h3, h⟩ := bind_some h
      dsimp only at h
      obtain ⟨rfl, rfl⟩ := some_pair h
      obtain ⟨a1, b1, k1⟩ := expect_ok rfl h1
      obtain ⟨w1, k2, d2⟩ := hr _ _ _ _ h2
      obtain ⟨a2, b2, k3⟩ := expect_ok rfl h3
      have ok : Ok s (⟨a1, .openParen, b1⟩ :: (w1 ++ [⟨a2, .closeParen, b2⟩])) q3 := by
        have := k1.trans (k2.trans (k3))
        simpa only [List.append_assoc, List.cons_append, List.nil_append] using this
      refine ⟨_, ok, ?_⟩
      simp only [ok.wrap (by simp)]
      exact .keyParenAddress rfl d2
    · skip
      obtain ⟨⟨v2, q2⟩, h2, h⟩ := bind_some h
      dsimp only at h
      obtain ⟨⟨v3, q3⟩, h3, h⟩ := bind_some h
      dsimp only at h
      obtain ⟨rfl, rfl⟩ := some_pair h
      obtain ⟨a1, b1, k1⟩ := expect_ok rfl h1
      obtain ⟨w1, k2, d2⟩ := hr _ _ _ _ h2
      obtain ⟨a2, b2, k3⟩ := expect_ok rfl h3
      have ok : Ok s (⟨a1, .openParen, b1⟩ :: (w1 ++ [⟨a2, .closeParen, b2⟩])) q3 := by
        have := k1.trans (k2.trans (k3))
        simpa only [List.append_assoc, List.cons_append, List.nil_append] using this
      refine ⟨_, ok, ?_⟩
      simp only [ok.wrap (by simp)]
      exact .keyParenMeta rfl d2
  · skip
    rcases ite_or h with ⟨_, h⟩ | ⟨_, h⟩
    · skip
      obtain ⟨⟨v1, q1⟩, h1, h⟩ := bind_some h
      dsimp only at h
      obtain ⟨rfl, rfl⟩ := some_pair h
      obtain ⟨w, k1, d1⟩ := hr _ _ _ _ h1
      have ok : Ok s (w) q1 := by
        have := k1
        simpa only [List.append_assoc, List.cons_append, List.nil_append] using this
      refine ⟨_, ok, ?_⟩
      simp only [ok.wrap (by simp [d1.ne_nil rfl])]
      exact .keyAddress d1
    · skip
      obtain ⟨⟨v1, q1⟩, h1, h⟩ := bind_some h
      dsimp only at h
      obtain ⟨rfl, rfl⟩ := some_pair h
      obtain ⟨w, k1, d1⟩ := hr _ _ _ _ h1
      have ok : Ok s (w) q1 := by
        have := k1
        simpa only [List.append_assoc, List.cons_append, List.nil_append] using this
      refine ⟨_, ok, ?_⟩
      simp only [ok.wrap (by simp [d1.ne_nil rfl])]
      exact .keyMeta d1

theorem pMapValue_sound (hr : Sound r) {s s' : PS} {v : Val .mapValue}
    (h : pMapValue r s = some (v, s')) : ∃ w, Ok s w s' ∧ Derives .mapValue w v := by
  simp only [pMapValue] at h
  rcases ite_or h with ⟨_, h⟩ | ⟨_, h⟩
  · skip
    obtain ⟨⟨v1, q1⟩, h1, h⟩ := bind_some h
    dsimp only at h
    obtain ⟨⟨v2, q2⟩, h2, h⟩ := bind_some h
    dsimp only at h
    obtain ⟨⟨v3, q3⟩, h3, h⟩ := bind_some h
    dsimp only at h
    obtain ⟨rfl, rfl⟩ := some_pair h
    obtain ⟨a1, b1, k1⟩ := expect_ok rfl h1
    obtain ⟨w1, k2, d2⟩ := hr _ _ _ _ h2
    obtain ⟨w2, k3, d3⟩ := hr _ _ _ _ h3
    have ok : Ok s (⟨a1, .map, b1⟩ :: (w1 ++ w2)) q3 := by
      have := k1.trans (k2.trans (k3))
      simpa only [List.append_assoc, List.cons_append, List.nil_append] using this
    refine ⟨_, ok, ?_⟩
    simp only [ok.wrap (by simp)]
    exact .valMap rfl d2 d3
  · skip
    rcases ite_or h with ⟨_, h⟩ | ⟨_, h⟩
    · skip
      obtain ⟨⟨v1, q1⟩, h1, h⟩ := bind_some h
      dsimp only at h
      obtain ⟨⟨v2, q2⟩, h2, h⟩ := bind_some h
      dsimp only at h
      obtain ⟨⟨v3, q3⟩, h3, h⟩ := bind_some h
      dsimp only at h
      obtain ⟨rfl, rfl⟩ := some_pair h
      obtain ⟨a1, b1, k1⟩ := expect_ok rfl h1
      obtain ⟨w1, k2, d2⟩ := hr _ _ _ _ h2
      obtain ⟨a2, b2, k3⟩ := expect_ok rfl h3
      have ok : Ok s (⟨a1, .openParen, b1⟩ :: (w1 ++ [⟨a2, .closeParen, b2⟩])) q3 := by
        have := k1.trans (k2.trans (k3))
        simpa only [List.append_assoc, List.cons_append, List.nil_append] using this
      refine ⟨_, ok, ?_⟩
      simp only [ok.wrap (by simp)]
      exact .valParen rfl d2
    · skip
      rcases ite_or h with ⟨_, h⟩ | ⟨_, h⟩
      · skip
        obtain ⟨⟨v1, q1⟩, h1, h⟩ := bind_some h
        dsimp only at h
        obtain ⟨rfl, rfl⟩ := some_pair h
        obtain ⟨w, k1, d1⟩ := hr _ _ _ _ h1
        have ok : Ok s (w) q1 := by
          have := k1
          simpa only [List.append_assoc, List.cons_append, List.nil_append] using this
        refine ⟨_, ok, ?_⟩
        simp only [ok.wrap (by simp [d1.ne_nil rfl])]
        exact .valAddress d1
      · skip
        obtain ⟨⟨v1, q1⟩, h1, h⟩ := bind_some h
        dsimp only at h
        obtain ⟨rfl, rfl⟩ := some_pair h
        obtain ⟨w, k1, d1⟩ := hr _ _ _ _ h1
        have ok : Ok s (w) q1 := by
          have := k1
          simpa only [List.append_assoc, List.cons_append, List.nil_append] using this
        refine ⟨_, ok, ?_⟩
        simp only [ok.wrap (by simp [d1.ne_nil rfl])]
        exact .valMeta d1

theorem pMapValueArgs_sound (hr : Sound r) {s s' : PS} {v : Val .mapValueArgs}
    (h : pMapValueArgs r s = some (v, s')) : ∃ w, Ok s w s' ∧ Derives .mapValueArgs w v := by
  simp only [pMapValueArgs] at h
  rcases ite_or h with ⟨_, h⟩ | ⟨_, h⟩
  · skip
    obtain ⟨⟨v1, q1⟩, h1, h⟩ := bind_some h
    dsimp only at h
    obtain ⟨⟨v2, q2⟩, h2, h⟩ := bind_some h
    dsimp only at h
    obtain ⟨⟨v3, q3⟩, h3, h⟩ := bind_some h
    dsimp only at h
    obtain ⟨rfl, rfl⟩ := some_pair h
    obtain ⟨a1, b1, k1⟩ := expect_ok rfl h1
    obtain ⟨w1, k2, d2⟩ := hr _ _ _ _ h2
    obtain ⟨w2, k3, d3⟩ := hr _ _ _ _ h3
    have ok : Ok s (⟨a1, .map, b1⟩ :: (w1 ++ w2)) q3 := by
      have := k1.trans (k2.trans (k3))
      simpa only [List.append_assoc, List.cons_append, List.nil_append] using this
    refine ⟨_, ok, ?_⟩
    simp only [ok.wrap (by simp)]
    exact .mvaMap rfl d2 d3
  · skip
    rcases ite_or h with ⟨_, h⟩ | ⟨_, h⟩
    · skip
      obtain ⟨⟨v1, q1⟩, h1, h⟩ := bind_some h
      dsimp only at h
      obtain ⟨⟨v2, q2⟩, h2, h⟩ := bind_some h
      dsimp only at h
      obtain ⟨⟨v3, q3⟩, h3, h⟩ := bind_some h
      dsimp only at h
      obtain ⟨rfl, rfl⟩ := some_pair h
      obtain ⟨a1, b1, k1⟩ := expect_ok rfl h1
      obtain ⟨w1, k2, d2⟩ := hr _ _ _ _ h2
      obtain ⟨a2, b2, k3⟩ := expect_ok rfl h3
      have ok : Ok s (⟨a1, .openParen, b1⟩ :: (w1 ++ [⟨a2, .closeParen, b2⟩])) q3 := by
        have := k1.trans (k2.trans (k3))
        simpa only [List.append_assoc, List.cons_append, List.nil_append] using this
      refine ⟨_, ok, ?_⟩
      simp only [ok.wrap (by simp)]
      exact .mvaParen rfl d2
    · skip
      obtain ⟨⟨v1, q1⟩, h1, h⟩ := bind_some h
      dsimp only at h
      obtain ⟨rfl, rfl⟩ := some_pair h
      obtain ⟨w, k1, d1⟩ := hr _ _ _ _ h1
      have ok : Ok s (w) q1 := by
        have := k1
        simpa only [List.append_assoc, List.cons_append, List.nil_append] using this
      refine ⟨_, ok, ?_⟩
      simp only [ok.wrap (by simp [d1.ne_nil rfl])]
      exact .mvaMeta d1

theorem pMapValueAllowing_sound (hr : Sound r) {s s' : PS} {v : Val .mapValueAllowing}
    (h : pMapValueAllowing r s = some (v, s')) : ∃ w, Ok s w s' ∧ Derives .mapValueAllowing w v := by
  simp only [pMapValueAllowing] at h
  rcases ite_or h with ⟨_, h⟩ | ⟨_, h⟩
  · skip
    obtain ⟨⟨v1, q1⟩, h1, h⟩ := bind_some h
    dsimp only at h
    rcases ite_or h with ⟨_, h⟩ | ⟨_, h⟩
    · skip
      obtain ⟨⟨v2, q2⟩, h2, h⟩ := bind_some h
      dsimp only at h
      obtain ⟨rfl, rfl⟩ := some_pair h
      obtain ⟨w1, k1, d1⟩ := hr _ _ _ _ h1
      obtain ⟨w2, k2, d2⟩ := hr _ _ _ _ h2
      have ok : Ok s (w1 ++ w2) q2 := by
        have := k1.trans (k2)
        simpa only [List.append_assoc, List.cons_append, List.nil_append] using this
      refine ⟨_, ok, ?_⟩
      simp only [ok.wrap (by simp [d1.ne_nil rfl])]
      exact .mvWithArgs rfl d1 d2
    · skip
      obtain ⟨rfl, rfl⟩ := some_pair h
      obtain ⟨w, k1, d1⟩ := hr _ _ _ _ h1
      have ok : Ok s (w) q1 := by
        have := k1
        simpa only [List.append_assoc, List.cons_append, List.nil_append] using this
      refine ⟨_, ok, ?_⟩
      simp only [ok.wrap (by simp [d1.ne_nil rfl])]
      exact .mvNoArgs (.valMeta d1)
  · skip
    obtain ⟨⟨v1, q1⟩, h1, h⟩ := bind_some h
    dsimp only at h
    obtain ⟨rfl, rfl⟩ := some_pair h
    obtain ⟨w, k1, d1⟩ := hr _ _ _ _ h1
    have ok : Ok s (w) q1 := by
      have := k1
      simpa only [List.append_assoc, List.cons_append, List.nil_append] using this
    refine ⟨_, ok, ?_⟩
    simp only [ok.wrap (by simp [d1.ne_nil rfl])]
    exact .mvNoArgs d1

theorem pProgram_sound (hr : Sound r) {s s' : PS} {v : Val .program}
    (h : pProgram r s = some (v, s')) : ∃ w, Ok s w s' ∧ Derives .program w v := by
  simp only [pProgram] at h
  obtain ⟨⟨v1, q1⟩, h1, h⟩ := bind_some h
  dsimp only at h
  obtain ⟨⟨v2, q2⟩, h2, h⟩ := bind_some h
  dsimp only at h
  obtain ⟨⟨v3, q3⟩, h3, h⟩ := bind_some h
  dsimp only at h
  obtain ⟨⟨v4, q4⟩, h4, h⟩ := bind_some h
  dsimp only at h
  obtain ⟨⟨v5, q5⟩, h5, h⟩ := bind_some h
  dsimp only at h
  obtain ⟨rfl, rfl⟩ := some_pair h
  obtain ⟨a1, b1, k1⟩ := expect_ok rfl h1
  obtain ⟨w1, k2, d2⟩ := hr _ _ _ _ h2
  obtain ⟨w2, k3, d3⟩ := hr _ _ _ _ h3
  obtain ⟨w3, k4, d4⟩ := hr _ _ _ _ h4
  obtain ⟨w4, k5, d5⟩ := hr _ _ _ _ h5
  have ok : Ok s (⟨a1, .scillaVersion, b1⟩ :: (w1 ++ (w2 ++ (w3 ++ w4)))) q5 := by
    have := k1.trans (k2.trans (k3.trans (k4.trans (k5))))
    simpa only [List.append_assoc, List.cons_append, List.nil_append] using this
  refine ⟨_, ok, ?_⟩
  exact .program rfl d2 d3 d4 d5

theorem pLibraryDef_sound (hr : Sound r) {s s' : PS} {v : Val .libraryDef}
    (h : pLibraryDef r s = some (v, s')) : ∃ w, Ok s w s' ∧ Derives .libraryDef w v := by
  simp only [pLibraryDef] at h
  obtain ⟨⟨v1, q1⟩, h1, h⟩ := bind_some h
  dsimp only at h
  obtain ⟨⟨v2, q2⟩, h2, h⟩ := bind_some h
  dsimp only at h
  obtain ⟨⟨v3, q3⟩, h3, h⟩ := bind_some h
  dsimp only at h
  obtain ⟨rfl, rfl⟩ := some_pair h
  obtain ⟨a1, b1, k1⟩ := expect_ok rfl h1
  obtain ⟨w1, k2, d2⟩ := hr _ _ _ _ h2
  obtain ⟨w2, k3, d3⟩ := hr _ _ _ _ h3
  have ok : Ok s (⟨a1, .library, b1⟩ :: (w1 ++ w2)) q3 := by
    have := k1.trans (k2.trans (k3))
    simpa only [List.append_assoc, List.cons_append, List.nil_append] using this
  refine ⟨_, ok, ?_⟩
  simp only [ok.wrap (by simp)]
  exact .libraryDef rfl d2 d3

theorem pLibrarySingle_sound (hr : Sound r) {s s' : PS} {v : Val .librarySingle}
    (h : pLibrarySingle r s = some (v, s')) : ∃ w, Ok s w s' ∧ Derives .librarySingle w v := by
  simp only [pLibrarySingle] at h
  rcases ite_or h with ⟨_, h⟩ | ⟨_, h⟩
  · skip
    obtain ⟨⟨v1, q1⟩, h1, h⟩ := bind_some h
    dsimp only at h
    obtain ⟨⟨v2, q2⟩, h2, h⟩ := bind_some h
    dsimp only at h
    obtain ⟨⟨v3, q3⟩, h3, h⟩ := bind_some h
    dsimp only at h
    obtain ⟨⟨v4, q4⟩, h4, h⟩ := bind_some h
    dsimp only at h
    obtain ⟨⟨v5, q5⟩, h5, h⟩ := bind_some h
    dsimp only at h
    obtain ⟨rfl, rfl⟩ := some_pair h
    obtain ⟨a1, b1, k1⟩ := expect_ok rfl h1
    obtain ⟨w1, k2, d2⟩ := hr _ _ _ _ h2
    obtain ⟨w2, k3, d3⟩ := hr _ _ _ _ h3
    obtain ⟨a2, b2, k4⟩ := expect_ok rfl h4
    obtain ⟨w3, k5, d5⟩ := hr _ _ _ _ h5
    have ok : Ok s (⟨a1, .let_, b1⟩ :: (w1 ++ (w2 ++ ⟨a2, .equals, b2⟩ :: w3))) q5 := by
      have := k1.trans (k2.trans (k3.trans (k4.trans (k5))))
      simpa only [List.append_assoc, List.cons_append, List.nil_append] using this
    refine ⟨_, ok, ?_⟩
    simp only [ok.wrap (by simp)]
    exact .libLet rfl d2 d3 d5
  · skip
    obtain ⟨⟨v1, q1⟩, h1, h⟩ := bind_some h
    dsimp only at h
    obtain ⟨⟨v2, q2⟩, h2, h⟩ := bind_some h
    dsimp only at h
    rcases ite_or h with ⟨_, h⟩ | ⟨_, h⟩
    · skip
      obtain ⟨⟨v3, q3⟩, h3, h⟩ := bind_some h
      dsimp only at h
      obtain ⟨⟨v4, q4⟩, h4, h⟩ := bind_some h
      dsimp only at h
      obtain ⟨rfl, rfl⟩ := some_pair h
      obtain ⟨a1, b1, k1⟩ := expect_ok rfl h1
      obtain ⟨w1, k2, d2⟩ := hr _ _ _ _ h2
      obtain ⟨a2, b2, k3⟩ := expect_ok rfl h3
      obtain ⟨w2, k4, d4⟩ := hr _ _ _ _ h4
      have ok : Ok s (⟨a1, .type, b1⟩ :: (w1 ++ ⟨a2, .equals, b2⟩ :: w2)) q4 := by
        have := k1.trans (k2.trans (k3.trans (k4)))
        simpa only [List.append_assoc, List.cons_append, List.nil_append] using this
      refine ⟨_, ok, ?_⟩
      simp only [ok.wrap (by simp)]
      exact .libTypeAlts rfl d2 d4
    · skip
      obtain ⟨rfl, rfl⟩ := some_pair h
      obtain ⟨a1, b1, k1⟩ := expect_ok rfl h1
      obtain ⟨w1, k2, d2⟩ := hr _ _ _ _ h2
      have ok : Ok s (⟨a1, .type, b1⟩ :: w1) q2 := by
        have := k1.trans (k2)
        simpa only [List.append_assoc, List.cons_append, List.nil_append] using this
      refine ⟨_, ok, ?_⟩
      simp only [ok.wrap (by simp)]
      exact .libType rfl d2

theorem pTypedId_sound (hr : Sound r) {s s' : PS} {v : Val .typedId}
    (h : pTypedId r s = some (v, s')) : ∃ w, Ok s w s' ∧ Derives .typedId w v := by
  simp only [pTypedId] at h
  obtain ⟨⟨v1, q1⟩, h1, h⟩ := bind_some h
  dsimp only at h
  obtain ⟨⟨v2, q2⟩, h2, h⟩ := bind_some h
  dsimp only at h
  obtain ⟨rfl, rfl⟩ := some_pair h
  obtain ⟨w1, k1, d1⟩ := hr _ _ _ _ h1
  obtain ⟨w2, k2, d2⟩ := hr _ _ _ _ h2
  have ok : Ok s (w1 ++ w2) q2 := by
    have := k1.trans (k2)
    simpa only [List.append_assoc, List.cons_append, List.nil_append] using this
  refine ⟨_, ok, ?_⟩
  simp only [ok.wrap (by simp [d1.ne_nil rfl])]
  exact .typedId rfl d1 d2

theorem pTypeAnn_sound (hr : Sound r) {s s' : PS} {v : Val .typeAnn}
    (h : pTypeAnn r s = some (v, s')) : ∃ w, Ok s w s' ∧ Derives .typeAnn w v := by
  simp only [pTypeAnn] at h
  obtain ⟨⟨v1, q1⟩, h1, h⟩ := bind_some h
  dsimp only at h
  obtain ⟨⟨v2, q2⟩, h2, h⟩ := bind_some h
  dsimp only at h
  obtain ⟨rfl, rfl⟩ := some_pair h
  obtain ⟨a1, b1, k1⟩ := expect_ok rfl h1
  obtain ⟨w1, k2, d2⟩ := hr _ _ _ _ h2
  have ok : Ok s (⟨a1, .colon, b1⟩ :: w1) q2 := by
    have := k1.trans (k2)
    simpa only [List.append_assoc, List.cons_append, List.nil_append] using this
  refine ⟨_, ok, ?_⟩
  simp only [ok.wrap (by simp)]
  exact .typeAnn rfl d2

theorem pTypeAlt_sound (hr : Sound r) {s s' : PS} {v : Val .typeAlt}
    (h : pTypeAlt r s = some (v, s')) : ∃ w, Ok s w s' ∧ Derives .typeAlt w v := by
  simp only [pTypeAlt] at h
  obtain ⟨⟨v1, q1⟩, h1, h⟩ := bind_some h
  dsimp only at h
  obtain ⟨⟨v2, q2⟩, h2, h⟩ := bind_some h
  dsimp only at h
  rcases ite_or h with ⟨_, h⟩ | ⟨_, h⟩
  · skip
    obtain ⟨⟨v3, q3⟩, h3, h⟩ := bind_some h
    dsimp only at h
    obtain ⟨⟨v4, q4⟩, h4, h⟩ := bind_some h
    dsimp only at h
    obtain ⟨rfl, rfl⟩ := some_pair h
    obtain ⟨a1, b1, k1⟩ := expect_ok rfl h1
    obtain ⟨w1, k2, d2⟩ := hr _ _ _ _ h2
    obtain ⟨a2, b2, k3⟩ := expect_ok rfl h3
    obtain ⟨w2, k4, d4⟩ := hr _ _ _ _ h4
    have ok : Ok s (⟨a1, .pipe, b1⟩ :: (w1 ++ ⟨a2, .of_, b2⟩ :: w2)) q4 := by
      have := k1.trans (k2.trans (k3.trans (k4)))
      simpa only [List.append_assoc, List.cons_append, List.nil_append] using this
    refine ⟨_, ok, ?_⟩
    simp only [ok.wrap (by simp)]
    exact .altTypeArgs rfl d2 d4
  · skip
    obtain ⟨rfl, rfl⟩ := some_pair h
    obtain ⟨a1, b1, k1⟩ := expect_ok rfl h1
    obtain ⟨w1, k2, d2⟩ := hr _ _ _ _ h2
    have ok : Ok s (⟨a1, .pipe, b1⟩ :: w1) q2 := by
      have := k1.trans (k2)
      simpa only [List.append_assoc, List.cons_append, List.nil_append] using this
    refine ⟨_, ok, ?_⟩
    simp only [ok.wrap (by simp)]
    exact .altType rfl d2

theorem pContractTypeArgs_sound (hr : Sound r) {s s' : PS} {v : Val .contractTypeArgs}
    (h : pContractTypeArgs r s = some (v, s')) : ∃ w, Ok s w s' ∧ Derives .contractTypeArgs w v := by
  simp only [pContractTypeArgs] at h
  obtain ⟨⟨v1, q1⟩, h1, h⟩ := bind_some h
  dsimp only at h
  obtain ⟨⟨v2, q2⟩, h2, h⟩ := bind_some h
  dsimp only at h
  obtain ⟨⟨v3, q3⟩, h3, h⟩ := bind_some h
  dsimp only at h
  obtain ⟨rfl, rfl⟩ := some_pair h
  obtain ⟨a1, b1, k1⟩ := expect_ok rfl h1
  obtain ⟨w1, k2, d2⟩ := hr _ _ _ _ h2
  obtain ⟨a2, b2, k3⟩ := expect_ok rfl h3
  have ok : Ok s (⟨a1, .openBrace, b1⟩ :: (w1 ++ [⟨a2, .closeBrace, b2⟩])) q3 := by
    have := k1.trans (k2.trans (k3))
    simpa only [List.append_assoc, List.cons_append, List.nil_append] using this
  refine ⟨_, ok, ?_⟩
  simp only [ok.wrap (by simp)]
  exact .contractTypeArgs rfl d2

theorem pFullExpr_sound (hr : Sound r) {s s' : PS} {v : Val .fullExpr}
    (h : pFullExpr r s = some (v, s')) : ∃ w, Ok s w s' ∧ Derives .fullExpr w v := by
  simp only [pFullExpr] at h
  rcases ite_or h with ⟨_, h⟩ | ⟨_, h⟩
  · skip
    obtain ⟨⟨v1, q1⟩, h1, h⟩ := bind_some h
    dsimp only at h
    obtain ⟨⟨v2, q2⟩, h2, h⟩ := bind_some h
    dsimp only at h
    obtain ⟨⟨v3, q3⟩, h3, h⟩ := bind_some h
    dsimp only at h
    obtain ⟨⟨v4, q4⟩, h4, h⟩ := bind_some h
    dsimp only at h
    obtain ⟨⟨v5, q5⟩, h5, h⟩ := bind_some h
    dsimp only at h
    obtain ⟨⟨v6, q6⟩, h6, h⟩ := bind_some h
    dsimp only at h
    obtain ⟨⟨v7, q7⟩, h7, h⟩ := bind_some h
    dsimp only at h
    obtain ⟨rfl, rfl⟩ := some_pair h
    obtain ⟨a1, b1, k1⟩ := expect_ok rfl h1
    obtain ⟨w1, k2, d2⟩ := hr _ _ _ _ h2
    obtain ⟨w2, k3, d3⟩ := hr _ _ _ _ h3
    obtain ⟨a2, b2, k4⟩ := expect_ok rfl h4
    obtain ⟨w3, k5, d5⟩ := hr _ _ _ _ h5
    obtain ⟨a3, b3, k6⟩ := expect_ok rfl h6
    obtain ⟨w4, k7, d7⟩ := hr _ _ _ _ h7
    have ok : Ok s (⟨a1, .let_, b1⟩ :: (w1 ++ (w2 ++ ⟨a2, .equals, b2⟩ :: (w3 ++ ⟨a3, .in_, b3⟩ :: w4)))) q7 := by
      have := k1.trans (k2.trans (k3.trans (k4.trans (k5.trans (k6.trans (k7))))))
      simpa only [List.append_assoc, List.cons_append, List.nil_append] using this
    refine ⟨_, ok, ?_⟩
    simp only [ok.wrap (by simp)]
    exact .exprLet rfl d2 d3 d5 d7
  · skip
    rcases ite_or h with ⟨_, h⟩ | ⟨_, h⟩
    · skip
      obtain ⟨⟨v1, q1⟩, h1, h⟩ := bind_some h
      dsimp only at h
      obtain ⟨⟨v2, q2⟩, h2, h⟩ := bind_some h
      dsimp only at h
      obtain ⟨⟨v3, q3⟩, h3, h⟩ := bind_some h
      dsimp only at h
      obtain ⟨⟨v4, q4⟩, h4, h⟩ := bind_some h
      dsimp only at h
      obtain ⟨⟨v5, q5⟩, h5, h⟩ := bind_some h
      dsimp only at h
      obtain ⟨⟨v6, q6⟩, h6, h⟩ := bind_some h
      dsimp only at h
      obtain ⟨⟨v7, q7⟩, h7, h⟩ := bind_some h
      dsimp only at h
      obtain ⟨rfl, rfl⟩ := some_pair h
      obtain ⟨a1, b1, k1⟩ := expect_ok rfl h1
      obtain ⟨a2, b2, k2⟩ := expect_ok rfl h2
      obtain ⟨w1, k3, d3⟩ := hr _ _ _ _ h3
      obtain ⟨w2, k4, d4⟩ := hr _ _ _ _ h4
      obtain ⟨a3, b3, k5⟩ := expect_ok rfl h5
      obtain ⟨a4, b4, k6⟩ := expect_ok rfl h6
      obtain ⟨w3, k7, d7⟩ := hr _ _ _ _ h7
      have ok : Ok s (⟨a1, .fun_, b1⟩ :: ⟨a2, .openParen, b2⟩ :: (w1 ++ (w2 ++ ⟨a3, .closeParen, b3⟩ :: ⟨a4, .doubleArrow, b4⟩ :: w3))) q7 := by
        have := k1.trans (k2.trans (k3.trans (k4.trans (k5.trans (k6.trans (k7))))))
        simpa only [List.append_assoc, List.cons_append, List.nil_append] using this
      refine ⟨_, ok, ?_⟩
      simp only [ok.wrap (by simp)]
      exact .exprFun rfl d3 d4 d7
    · skip
      rcases ite_or h with ⟨_, h⟩ | ⟨_, h⟩
      · skip
        obtain ⟨⟨v1, q1⟩, h1, h⟩ := bind_some h
        dsimp only at h
        obtain ⟨⟨v2, q2⟩, h2, h⟩ := bind_some h
        dsimp only at h
        obtain ⟨⟨v3, q3⟩, h3, h⟩ := bind_some h
        dsimp only at h
        obtain ⟨⟨v4, q4⟩, h4, h⟩ := bind_some h
        dsimp only at h
        obtain ⟨rfl, rfl⟩ := some_pair h
        obtain ⟨a1, b1, k1⟩ := expect_ok rfl h1
        obtain ⟨w1, k2, d2⟩ := hr _ _ _ _ h2
        obtain ⟨w2, k3, d3⟩ := hr _ _ _ _ h3
        obtain ⟨w3, k4, d4⟩ := hr _ _ _ _ h4
        have ok : Ok s (⟨a1, .builtin, b1⟩ :: (w1 ++ (w2 ++ w3))) q4 := by
          have := k1.trans (k2.trans (k3.trans (k4)))
          simpa only [List.append_assoc, List.cons_append, List.nil_append] using this
        refine ⟨_, ok, ?_⟩
        simp only [ok.wrap (by simp)]
        exact .exprBuiltin rfl d2 d3 d4
      · skip
        rcases ite_or h with ⟨_, h⟩ | ⟨_, h⟩
        · skip
          obtain ⟨⟨v1, q1⟩, h1, h⟩ := bind_some h
          dsimp only at h
          obtain ⟨⟨v2, q2⟩, h2, h⟩ := bind_some h
          dsimp only at h
          obtain ⟨⟨v3, q3⟩, h3, h⟩ := bind_some h
          dsimp only at h
          obtain ⟨⟨v4, q4⟩, h4, h⟩ := bind_some h
          dsimp only at h
          obtain ⟨rfl, rfl⟩ := some_pair h
          obtain ⟨a1, b1, k1⟩ := expect_ok rfl h1
          obtain ⟨w1, k2, d2⟩ := hr _ _ _ _ h2
          obtain ⟨w2, k3, d3⟩ := hr _ _ _ _ h3
          obtain ⟨a2, b2, k4⟩ := expect_ok rfl h4
          have ok : Ok s (⟨a1, .openBrace, b1⟩ :: (w1 ++ (w2 ++ [⟨a2, .closeBrace, b2⟩]))) q4 := by
            have := k1.trans (k2.trans (k3.trans (k4)))
            simpa only [List.append_assoc, List.cons_append, List.nil_append] using this
          refine ⟨_, ok, ?_⟩
          simp only [ok.wrap (by simp)]
          exact .exprMessage rfl d2 d3
        · skip
          rcases ite_or h with ⟨_, h⟩ | ⟨_, h⟩
          · skip
            obtain ⟨⟨v1, q1⟩, h1, h⟩ := bind_some h
            dsimp only at h
            obtain ⟨⟨v2, q2⟩, h2, h⟩ := bind_some h
            dsimp only at h
            obtain ⟨⟨v3, q3⟩, h3, h⟩ := bind_some h
            dsimp only at h
            obtain ⟨⟨v4, q4⟩, h4, h⟩ := bind_some h
            dsimp only at h
            obtain ⟨⟨v5, q5⟩, h5, h⟩ := bind_some h
            dsimp only at h
            obtain ⟨rfl, rfl⟩ := some_pair h
            obtain ⟨a1, b1, k1⟩ := expect_ok rfl h1
            obtain ⟨w1, k2, d2⟩ := hr _ _ _ _ h2
            obtain ⟨a2, b2, k3⟩ := expect_ok rfl h3
            obtain ⟨w2, k4, d4⟩ := hr _ _ _ _ h4
            obtain ⟨a3, b3, k5⟩ := expect_ok rfl h5
            have ok : Ok s (⟨a1, .match_, b1⟩ :: (w1 ++ ⟨a2, .with_, b2⟩ :: (w2 ++ [⟨a3, .end_, b3⟩]))) q5 := by
              have := k1.trans (k2.trans (k3.trans (k4.trans (k5))))
              simpa only [List.append_assoc, List.cons_append, List.nil_append] using this
            refine ⟨_, ok, ?_⟩
            simp only [ok.wrap (by simp)]
            exact .exprMatch rfl d2 d4
          · skip
            rcases ite_or h with ⟨_, h⟩ | ⟨_, h⟩
            · skip
              obtain ⟨⟨v1, q1⟩, h1, h⟩ := bind_some h
              dsimp only at h
              obtain ⟨⟨v2, q2⟩, h2, h⟩ := bind_some h
              dsimp only at h
              obtain ⟨⟨v3, q3⟩, h3, h⟩ := bind_some h
              dsimp only at h
              obtain ⟨⟨v4, q4⟩, h4, h⟩ := bind_some h
              dsimp only at h
              obtain ⟨rfl, rfl⟩ := some_pair h
              obtain ⟨a1, b1, k1⟩ := expect_ok rfl h1
              obtain ⟨w1, k2, d2⟩ := hr _ _ _ _ h2
              obtain ⟨a2, b2, k3⟩ := expect_ok rfl h3
              obtain ⟨w2, k4, d4⟩ := hr _ _ _ _ h4
              have ok : Ok s (⟨a1, .tfun, b1⟩ :: (w1 ++ ⟨a2, .doubleArrow, b2⟩ :: w2)) q4 := by
                have := k1.trans (k2.trans (k3.trans (k4)))
                simpa only [List.append_assoc, List.cons_append, List.nil_append] using this
              refine ⟨_, ok, ?_⟩
              simp only [ok.wrap (by simp)]
              exact .exprTFun rfl d2 d4
            · skip
              rcases ite_or h with ⟨_, h⟩ | ⟨_, h⟩
              · skip
                obtain ⟨⟨v1, q1⟩, h1, h⟩ := bind_some h
                dsimp only at h
                obtain ⟨⟨v2, q2⟩, h2, h⟩ := bind_some h
                dsimp only at h
                obtain ⟨⟨v3, q3⟩, h3, h⟩ := bind_some h
                dsimp only at h
                obtain ⟨rfl, rfl⟩ := some_pair h
                obtain ⟨a1, b1, k1⟩ := expect_ok rfl h1
                obtain ⟨w1, k2, d2⟩ := hr _ _ _ _ h2
                obtain ⟨w2, k3, d3⟩ := hr _ _ _ _ h3
                have ok : Ok s (⟨a1, .at_, b1⟩ :: (w1 ++ w2)) q3 := by
                  have := k1.trans (k2.trans (k3))
                  simpa only [List.append_assoc, List.cons_append, List.nil_append] using this
                refine ⟨_, ok, ?_⟩
                simp only [ok.wrap (by simp)]
                exact .exprTApp rfl d2 d3
              · skip
                rcases ite_or h with ⟨_, h⟩ | ⟨_, h⟩
                · skip
                  obtain ⟨⟨v1, q1⟩, h1, h⟩ := bind_some h
                  dsimp only at h
                  rcases ite_or h with ⟨_, h⟩ | ⟨_, h⟩
                  · skip
                    obtain ⟨⟨v2, q2⟩, h2, h⟩ := bind_some h
                    dsimp only at h
                    obtain ⟨rfl, rfl⟩ := some_pair h
                    obtain ⟨w1, k1, d1⟩ := hr _ _ _ _ h1
                    obtain ⟨w2, k2, d2⟩ := hr _ _ _ _ h2
                    have ok : Ok s (w1 ++ w2) q2 := by
                      have := k1.trans (k2)
                      simpa only [List.append_assoc, List.cons_append, List.nil_append] using this
                    refine ⟨_, ok, ?_⟩
                    simp only [ok.wrap (by simp [d1.ne_nil rfl])]
                    exact .exprCall rfl d1 d2
                  · skip
                    obtain ⟨rfl, rfl⟩ := some_pair h
                    obtain ⟨w, k1, d1⟩ := hr _ _ _ _ h1
                    have ok : Ok s (w) q1 := by
                      have := k1
                      simpa only [List.append_assoc, List.cons_append, List.nil_append] using this
                    refine ⟨_, ok, ?_⟩
                    simp only [ok.wrap (by simp [d1.ne_nil rfl])]
                    exact .exprAtomic (.atomicVar d1)
                · skip
                  rcases ite_or h with ⟨_, h⟩ | ⟨_, h⟩
                  · skip
                    obtain ⟨⟨v1, q1⟩, h1, h⟩ := bind_some h
                    dsimp only at h
                    obtain ⟨rfl, rfl⟩ := some_pair h
                    obtain ⟨w, k1, d1⟩ := hr _ _ _ _ h1
                    have ok : Ok s (w) q1 := by
                      have := k1
                      simpa only [List.append_assoc, List.cons_append, List.nil_append] using this
                    refine ⟨_, ok, ?_⟩
                    simp only [ok.wrap (by simp [d1.ne_nil rfl])]
                    exact .exprAtomic d1
                  · skip
                    obtain ⟨⟨v1, q1⟩, h1, h⟩ := bind_some h
                    dsimp only at h
                    obtain ⟨⟨v2, q2⟩, h2, h⟩ := bind_some h
                    dsimp only at h
                    obtain ⟨⟨v3, q3⟩, h3, h⟩ := bind_some h
                    dsimp only at h
                    obtain ⟨rfl, rfl⟩ := some_pair h
                    obtain ⟨w1, k1, d1⟩ := hr _ _ _ _ h1
                    obtain ⟨w2, k2, d2⟩ := hr _ _ _ _ h2
                    obtain ⟨w3, k3, d3⟩ := hr _ _ _ _ h3
                    have ok : Ok s (w1 ++ (w2 ++ w3)) q3 := by
                      have := k1.trans (k2.trans (k3))
                      simpa only [List.append_assoc, List.cons_append, List.nil_append] using this
                    refine ⟨_, ok, ?_⟩
                    simp only [ok.wrap (by simp [d1.ne_nil rfl])]
                    exact .exprConstr rfl d1 d2 d3

theorem pPmExprClause_sound (hr : Sound r) {s s' : PS} {v : Val .pmExprClause}
    (h : pPmExprClause r s = some (v, s')) : ∃ w, Ok s w s' ∧ Derives .pmExprClause w v := by
  simp only [pPmExprClause] at h
  obtain ⟨⟨v1, q1⟩, h1, h⟩ := bind_some h
  dsimp only at h
  obtain ⟨⟨v2, q2⟩, h2, h⟩ := bind_some h
  dsimp only at h
  obtain ⟨⟨v3, q3⟩, h3, h⟩ := bind_some h
  dsimp only at h
  obtain ⟨⟨v4, q4⟩, h4, h⟩ := bind_some h
  dsimp only at h
  obtain ⟨rfl, rfl⟩ := some_pair h
  obtain ⟨a1, b1, k1⟩ := expect_ok rfl h1
  obtain ⟨w1, k2, d2⟩ := hr _ _ _ _ h2
  obtain ⟨a2, b2, k3⟩ := expect_ok rfl h3
  obtain ⟨w2, k4, d4⟩ := hr _ _ _ _ h4
  have ok : Ok s (⟨a1, .pipe, b1⟩ :: (w1 ++ ⟨a2, .doubleArrow, b2⟩ :: w2)) q4 := by
    have := k1.trans (k2.trans (k3.trans (k4)))
    simpa only [List.append_assoc, List.cons_append, List.nil_append] using this
  refine ⟨_, ok, ?_⟩
  simp only [ok.wrap (by simp)]
  exact .pmExprClause rfl d2 d4

theorem pPattern_sound (hr : Sound r) {s s' : PS} {v : Val .pattern}
    (h : pPattern r s = some (v, s')) : ∃ w, Ok s w s' ∧ Derives .pattern w v := by
  simp only [pPattern] at h
  rcases ite_or h with ⟨_, h⟩ | ⟨_, h⟩
  · skip
    obtain ⟨⟨v1, q1⟩, h1, h⟩ := bind_some h
    dsimp only at h
    obtain ⟨rfl, rfl⟩ := some_pair h
    obtain ⟨a1, b1, k1⟩ := expect_ok rfl h1
    have ok : Ok s ([⟨a1, .underscore, b1⟩]) q1 := by
      have := k1
      simpa only [List.append_assoc, List.cons_append, List.nil_append] using this
    refine ⟨_, ok, ?_⟩
    simp only [ok.wrap (by simp)]
    exact .patWildcard rfl
  · skip
    rcases ite_or h with ⟨_, h⟩ | ⟨_, h⟩
    · skip
      obtain ⟨⟨v1, q1⟩, h1, h⟩ := bind_some h
      dsimp only at h
      obtain ⟨rfl, rfl⟩ := some_pair h
      obtain ⟨w, k1, d1⟩ := hr _ _ _ _ h1
      have ok : Ok s (w) q1 := by
        have := k1
        simpa only [List.append_assoc, List.cons_append, List.nil_append] using this
      refine ⟨_, ok, ?_⟩
      simp only [ok.wrap (by simp [d1.ne_nil rfl])]
      exact .patBinder d1
    · skip
      obtain ⟨⟨v1, q1⟩, h1, h⟩ := bind_some h
      dsimp only at h
      obtain ⟨⟨v2, q2⟩, h2, h⟩ := bind_some h
      dsimp only at h
      obtain ⟨rfl, rfl⟩ := some_pair h
      obtain ⟨w1, k1, d1⟩ := hr _ _ _ _ h1
      obtain ⟨w2, k2, d2⟩ := hr _ _ _ _ h2
      have ok : Ok s (w1 ++ w2) q2 := by
        have := k1.trans (k2)
        simpa only [List.append_assoc, List.cons_append, List.nil_append] using this
      refine ⟨_, ok, ?_⟩
      simp only [ok.wrap (by simp [d1.ne_nil rfl])]
      exact .patConstr rfl d1 d2

theorem pArgPattern_sound (hr : Sound r) {s s' : PS} {v : Val .argPattern}
    (h : pArgPattern r s = some (v, s')) : ∃ w, Ok s w s' ∧ Derives .argPattern w v := by
  simp only [pArgPattern] at h
  rcases ite_or h with ⟨_, h⟩ | ⟨_, h⟩
  · skip
    obtain ⟨⟨v1, q1⟩, h1, h⟩ := bind_some h
    dsimp only at h
    obtain ⟨rfl, rfl⟩ := some_pair h
    obtain ⟨a1, b1, k1⟩ := expect_ok rfl h1
    have ok : Ok s ([⟨a1, .underscore, b1⟩]) q1 := by
      have := k1
      simpa only [List.append_assoc, List.cons_append, List.nil_append] using this
    refine ⟨_, ok, ?_⟩
    simp only [ok.wrap (by simp)]
    exact .apWildcard rfl
  · skip
    rcases ite_or h with ⟨_, h⟩ | ⟨_, h⟩
    · skip
      obtain ⟨⟨v1, q1⟩, h1, h⟩ := bind_some h
      dsimp only at h
      obtain ⟨rfl, rfl⟩ := some_pair h
      obtain ⟨w, k1, d1⟩ := hr _ _ _ _ h1
      have ok : Ok s (w) q1 := by
        have := k1
        simpa only [List.append_assoc, List.cons_append, List.nil_append] using this
      refine ⟨_, ok, ?_⟩
      simp only [ok.wrap (by simp [d1.ne_nil rfl])]
      exact .apBinder d1
    · skip
      rcases ite_or h with ⟨_, h⟩ | ⟨_, h⟩
      · skip
        obtain ⟨⟨v1, q1⟩, h1, h⟩ := bind_some h
        dsimp only at h
        obtain ⟨⟨v2, q2⟩, h2, h⟩ := bind_some h
        dsimp only at h
        obtain ⟨⟨v3, q3⟩, h3, h⟩ := bind_some h
        dsimp only at h
        obtain ⟨rfl, rfl⟩ := some_pair h
        obtain ⟨a1, b1, k1⟩ := expect_ok rfl h1
        obtain ⟨w1, k2, d2⟩ := hr _ _ _ _ h2
        obtain ⟨a2, b2, k3⟩ := expect_ok rfl h3
        have ok : Ok s (⟨a1, .openParen, b1⟩ :: (w1 ++ [⟨a2, .closeParen, b2⟩])) q3 := by
          have := k1.trans (k2.trans (k3))
          simpa only [List.append_assoc, List.cons_append, List.nil_append] using this
        refine ⟨_, ok, ?_⟩
        simp only [ok.wrap (by simp)]
        exact .apParen rfl d2
      · skip
        obtain ⟨⟨v1, q1⟩, h1, h⟩ := bind_some h
        dsimp only at h
        obtain ⟨rfl, rfl⟩ := some_pair h
        obtain ⟨w, k1, d1⟩ := hr _ _ _ _ h1
        have ok : Ok s (w) q1 := by
          have := k1
          simpa only [List.append_assoc, List.cons_append, List.nil_append] using this
        refine ⟨_, ok, ?_⟩
        simp only [ok.wrap (by simp [d1.ne_nil rfl])]
        exact .apConstr d1

theorem pNextMessage_sound (hr : Sound r) {s s' : PS} {v : Val .nextMessage}
    (h : pNextMessage r s = some (v, s')) : ∃ w, Ok s w s' ∧ Derives .nextMessage w v := by
  simp only [pNextMessage] at h
  obtain ⟨⟨v1, q1⟩, h1, h⟩ := bind_some h
  dsimp only at h
  have h2 := h
  obtain ⟨a1, b1, k1⟩ := expect_ok rfl h1
  obtain ⟨w1, k2, d2⟩ := hr _ _ _ _ h2
  have ok : Ok s (⟨a1, .semicolon, b1⟩ :: w1) s' := by
    have := k1.trans (k2)
    simpa only [List.append_assoc, List.cons_append, List.nil_append] using this
  refine ⟨_, ok, ?_⟩
  exact .nextMessage rfl d2

theorem pMessageEntry_sound (hr : Sound r) {s s' : PS} {v : Val .messageEntry}
    (h : pMessageEntry r s = some (v, s')) : ∃ w, Ok s w s' ∧ Derives .messageEntry w v := by
  simp only [pMessageEntry] at h
  obtain ⟨⟨v1, q1⟩, h1, h⟩ := bind_some h
  dsimp only at h
  obtain ⟨⟨v2, q2⟩, h2, h⟩ := bind_some h
  dsimp only at h
  rcases ite_or h with ⟨_, h⟩ | ⟨_, h⟩
  · skip
    obtain ⟨⟨v3, q3⟩, h3, h⟩ := bind_some h
    dsimp only at h
    obtain ⟨rfl, rfl⟩ := some_pair h
    obtain ⟨w1, k1, d1⟩ := hr _ _ _ _ h1
    obtain ⟨a1, b1, k2⟩ := expect_ok rfl h2
    obtain ⟨w2, k3, d3⟩ := hr _ _ _ _ h3
    have ok : Ok s (w1 ++ ⟨a1, .colon, b1⟩ :: w2) q3 := by
      have := k1.trans (k2.trans (k3))
      simpa only [List.append_assoc, List.cons_append, List.nil_append] using this
    refine ⟨_, ok, ?_⟩
    simp only [ok.wrap (by simp)]
    exact .msgVariable rfl d1 d3
  · skip
    obtain ⟨⟨v3, q3⟩, h3, h⟩ := bind_some h
    dsimp only at h
    obtain ⟨rfl, rfl⟩ := some_pair h
    obtain ⟨w1, k1, d1⟩ := hr _ _ _ _ h1
    obtain ⟨a1, b1, k2⟩ := expect_ok rfl h2
    obtain ⟨w2, k3, d3⟩ := hr _ _ _ _ h3
    have ok : Ok s (w1 ++ ⟨a1, .colon, b1⟩ :: w2) q3 := by
      have := k1.trans (k2.trans (k3))
      simpa only [List.append_assoc, List.cons_append, List.nil_append] using this
    refine ⟨_, ok, ?_⟩
    simp only [ok.wrap (by simp)]
    exact .msgLiteral rfl d1 d3

theorem pAtomic_sound (hr : Sound r) {s s' : PS} {v : Val .atomic}
    (h : pAtomic r s = some (v, s')) : ∃ w, Ok s w s' ∧ Derives .atomic w v := by
  simp only [pAtomic] at h
  rcases ite_or h with ⟨_, h⟩ | ⟨_, h⟩
  · skip
    obtain ⟨⟨v1, q1⟩, h1, h⟩ := bind_some h
    dsimp only at h
    obtain ⟨rfl, rfl⟩ := some_pair h
    obtain ⟨w, k1, d1⟩ := hr _ _ _ _ h1
    have ok : Ok s (w) q1 := by
      have := k1
      simpa only [List.append_assoc, List.cons_append, List.nil_append] using this
    refine ⟨_, ok, ?_⟩
    simp only [ok.wrap (by simp [d1.ne_nil rfl])]
    exact .atomicVar d1
  · skip
    obtain ⟨⟨v1, q1⟩, h1, h⟩ := bind_some h
    dsimp only at h
    obtain ⟨rfl, rfl⟩ := some_pair h
    obtain ⟨w, k1, d1⟩ := hr _ _ _ _ h1
    have ok : Ok s (w) q1 := by
      have := k1
      simpa only [List.append_assoc, List.cons_append, List.nil_append] using this
    refine ⟨_, ok, ?_⟩
    simp only [ok.wrap (by simp [d1.ne_nil rfl])]
    exact .atomicLit d1

theorem pValueLit_sound (hr : Sound r) {s s' : PS} {v : Val .valueLit}
    (h : pValueLit r s = some (v, s')) : ∃ w, Ok s w s' ∧ Derives .valueLit w v := by
  simp only [pValueLit] at h
  rcases ite_or h with ⟨_, h⟩ | ⟨_, h⟩
  · skip
    obtain ⟨⟨v1, q1⟩, h1, h⟩ := bind_some h
    dsimp only at h
    obtain ⟨rfl, rfl⟩ := some_pair h
    obtain ⟨w, k1, d1⟩ := hr _ _ _ _ h1
    have ok : Ok s (w) q1 := by
      have := k1
      simpa only [List.append_assoc, List.cons_append, List.nil_append] using this
    refine ⟨_, ok, ?_⟩
    simp only [ok.wrap (by simp [d1.ne_nil rfl])]
    exact .litHex d1
  · skip
    rcases ite_or h with ⟨_, h⟩ | ⟨_, h⟩
    · skip
      obtain ⟨⟨v1, q1⟩, h1, h⟩ := bind_some h
      dsimp only at h
      obtain ⟨rfl, rfl⟩ := some_pair h
      obtain ⟨w, k1, d1⟩ := hr _ _ _ _ h1
      have ok : Ok s (w) q1 := by
        have := k1
        simpa only [List.append_assoc, List.cons_append, List.nil_append] using this
      refine ⟨_, ok, ?_⟩
      simp only [ok.wrap (by simp [d1.ne_nil rfl])]
      exact .litString d1
    · skip
      rcases ite_or h with ⟨_, h⟩ | ⟨_, h⟩
      · skip
        obtain ⟨⟨v1, q1⟩, h1, h⟩ := bind_some h
        dsimp only at h
        obtain ⟨⟨v2, q2⟩, h2, h⟩ := bind_some h
        dsimp only at h
        obtain ⟨⟨v3, q3⟩, h3, h⟩ := bind_some h
        dsimp only at h
        obtain ⟨rfl, rfl⟩ := some_pair h
        obtain ⟨a1, b1, k1⟩ := expect_ok rfl h1
        obtain ⟨w1, k2, d2⟩ := hr _ _ _ _ h2
        obtain ⟨w2, k3, d3⟩ := hr _ _ _ _ h3
        have ok : Ok s (⟨a1, .emp, b1⟩ :: (w1 ++ w2)) q3 := by
          have := k1.trans (k2.trans (k3))
          simpa only [List.append_assoc, List.cons_append, List.nil_append] using this
        refine ⟨_, ok, ?_⟩
        simp only [ok.wrap (by simp)]
        exact .litEmp rfl d2 d3
      · skip
        obtain ⟨⟨v1, q1⟩, h1, h⟩ := bind_some h
        dsimp only at h
        obtain ⟨⟨v2, q2⟩, h2, h⟩ := bind_some h
        dsimp only at h
        obtain ⟨rfl, rfl⟩ := some_pair h
        obtain ⟨w1, k1, d1⟩ := hr _ _ _ _ h1
        obtain ⟨w2, k2, d2⟩ := hr _ _ _ _ h2
        have ok : Ok s (w1 ++ w2) q2 := by
          have := k1.trans (k2)
          simpa only [List.append_assoc, List.cons_append, List.nil_append] using this
        refine ⟨_, ok, ?_⟩
        simp only [ok.wrap (by simp [d1.ne_nil rfl])]
        exact .litInt rfl d1 d2

theorem pStatement_sound (hr : Sound r) {s s' : PS} {v : Val .statement}
    (h : pStatement r s = some (v, s')) : ∃ w, Ok s w s' ∧ Derives .statement w v := by
  unfold pStatement at h
  rcases ite_or h with ⟨_, h⟩ | ⟨_, h⟩
  · skip
    obtain ⟨⟨v1, q1⟩, h1, h⟩ := bind_some h
    dsimp only at h
    obtain ⟨⟨v2, q2⟩, h2, h⟩ := bind_some h
    dsimp only at h
    obtain ⟨⟨v3, q3⟩, h3, h⟩ := bind_some h
    dsimp only at h
    obtain ⟨rfl, rfl⟩ := some_pair h
    obtain ⟨a1, b1, k1⟩ := expect_ok rfl h1
    obtain ⟨w1, k2, d2⟩ := hr _ _ _ _ h2
    obtain ⟨w2, k3, d3⟩ := hr _ _ _ _ h3
    have ok : Ok s (⟨a1, .delete, b1⟩ :: (w1 ++ w2)) q3 := by
      have := k1.trans (k2.trans (k3))
      simpa only [List.append_assoc, List.cons_append, List.nil_append] using this
    refine ⟨_, ok, ?_⟩
    exact .stMapDelete rfl d2 d3
  · skip
    rcases ite_or h with ⟨_, h⟩ | ⟨_, h⟩
    · skip
      obtain ⟨⟨v1, q1⟩, h1, h⟩ := bind_some h
      dsimp only at h
      obtain ⟨rfl, rfl⟩ := some_pair h
      obtain ⟨a1, b1, k1⟩ := expect_ok rfl h1
      have ok : Ok s ([⟨a1, .accept, b1⟩]) q1 := by
        have := k1
        simpa only [List.append_assoc, List.cons_append, List.nil_append] using this
      refine ⟨_, ok, ?_⟩
      exact .stAccept rfl
    · skip
      rcases ite_or h with ⟨_, h⟩ | ⟨_, h⟩
      · skip
        obtain ⟨⟨v1, q1⟩, h1, h⟩ := bind_some h
        dsimp only at h
        obtain ⟨⟨v2, q2⟩, h2, h⟩ := bind_some h
        dsimp only at h
        obtain ⟨rfl, rfl⟩ := some_pair h
        obtain ⟨a1, b1, k1⟩ := expect_ok rfl h1
        obtain ⟨w1, k2, d2⟩ := hr _ _ _ _ h2
        have ok : Ok s (⟨a1, .send, b1⟩ :: w1) q2 := by
          have := k1.trans (k2)
          simpa only [List.append_assoc, List.cons_append, List.nil_append] using this
        refine ⟨_, ok, ?_⟩
        exact .stSend rfl d2
      · skip
        rcases ite_or h with ⟨_, h⟩ | ⟨_, h⟩
        · skip
          obtain ⟨⟨v1, q1⟩, h1, h⟩ := bind_some h
          dsimp only at h
          obtain ⟨⟨v2, q2⟩, h2, h⟩ := bind_some h
          dsimp only at h
          obtain ⟨rfl, rfl⟩ := some_pair h
          obtain ⟨a1, b1, k1⟩ := expect_ok rfl h1
          obtain ⟨w1, k2, d2⟩ := hr _ _ _ _ h2
          have ok : Ok s (⟨a1, .event, b1⟩ :: w1) q2 := by
            have := k1.trans (k2)
            simpa only [List.append_assoc, List.cons_append, List.nil_append] using this
          refine ⟨_, ok, ?_⟩
          exact .stEvent rfl d2
        · skip
          rcases ite_or h with ⟨_, h⟩ | ⟨_, h⟩
          · skip
            obtain ⟨⟨v1, q1⟩, h1, h⟩ := bind_some h
            dsimp only at h
            obtain ⟨⟨v2, q2⟩, h2, h⟩ := bind_some h
            dsimp only at h
            obtain ⟨rfl, rfl⟩ := some_pair h
            obtain ⟨a1, b1, k1⟩ := expect_ok rfl h1
            obtain ⟨w1, k2, d2⟩ := hr _ _ _ _ h2
            have ok : Ok s (⟨a1, .throw, b1⟩ :: w1) q2 := by
              have := k1.trans (k2)
              simpa only [List.append_assoc, List.cons_append, List.nil_append] using this
            refine ⟨_, ok, ?_⟩
            exact .stThrow rfl d2
          · skip
            rcases ite_or h with ⟨_, h⟩ | ⟨_, h⟩
            · skip
              obtain ⟨⟨v1, q1⟩, h1, h⟩ := bind_some h
              dsimp only at h
              obtain ⟨⟨v2, q2⟩, h2, h⟩ := bind_some h
              dsimp only at h
              obtain ⟨⟨v3, q3⟩, h3, h⟩ := bind_some h
              dsimp only at h
              obtain ⟨⟨v4, q4⟩, h4, h⟩ := bind_some h
              dsimp only at h
              obtain ⟨⟨v5, q5⟩, h5, h⟩ := bind_some h
              dsimp only at h
              obtain ⟨rfl, rfl⟩ := some_pair h
              obtain ⟨a1, b1, k1⟩ := expect_ok rfl h1
              obtain ⟨w1, k2, d2⟩ := hr _ _ _ _ h2
              obtain ⟨a2, b2, k3⟩ := expect_ok rfl h3
              obtain ⟨w2, k4, d4⟩ := hr _ _ _ _ h4
              obtain ⟨a3, b3, k5⟩ := expect_ok rfl h5
              have ok : Ok s (⟨a1, .match_, b1⟩ :: (w1 ++ ⟨a2, .with_, b2⟩ :: (w2 ++ [⟨a3, .end_, b3⟩]))) q5 := by
                have := k1.trans (k2.trans (k3.trans (k4.trans (k5))))
                simpa only [List.append_assoc, List.cons_append, List.nil_append] using this
              refine ⟨_, ok, ?_⟩
              exact .stMatch rfl d2 d4
            · skip
              rcases ite_or h with ⟨_, h⟩ | ⟨_, h⟩
              · skip
                obtain ⟨⟨v1, q1⟩, h1, h⟩ := bind_some h
                dsimp only at h
                obtain ⟨⟨v2, q2⟩, h2, h⟩ := bind_some h
                dsimp only at h
                obtain ⟨⟨v3, q3⟩, h3, h⟩ := bind_some h
                dsimp only at h
                obtain ⟨rfl, rfl⟩ := some_pair h
                obtain ⟨a1, b1, k1⟩ := expect_ok rfl h1
                obtain ⟨w1, k2, d2⟩ := hr _ _ _ _ h2
                obtain ⟨w2, k3, d3⟩ := hr _ _ _ _ h3
                have ok : Ok s (⟨a1, .forall_, b1⟩ :: (w1 ++ w2)) q3 := by
                  have := k1.trans (k2.trans (k3))
                  simpa only [List.append_assoc, List.cons_append, List.nil_append] using this
                refine ⟨_, ok, ?_⟩
                exact .stForall rfl d2 d3
              · skip
                rcases ite_or h with ⟨_, h⟩ | ⟨_, h⟩
                · skip
                  obtain ⟨⟨v1, q1⟩, h1, h⟩ := bind_some h
                  dsimp only at h
                  obtain ⟨⟨v2, q2⟩, h2, h⟩ := bind_some h
                  dsimp only at h
                  obtain ⟨⟨v3, q3⟩, h3, h⟩ := bind_some h
                  dsimp only at h
                  obtain ⟨rfl, rfl⟩ := some_pair h
                  obtain ⟨w1, k1, d1⟩ := hr _ _ _ _ h1
                  obtain ⟨a1, b1, k2⟩ := expect_ok rfl h2
                  obtain ⟨w2, k3, d3⟩ := hr _ _ _ _ h3
                  have ok : Ok s (w1 ++ ⟨a1, .colonEquals, b1⟩ :: w2) q3 := by
                    have := k1.trans (k2.trans (k3))
                    simpa only [List.append_assoc, List.cons_append, List.nil_append] using this
                  refine ⟨_, ok, ?_⟩
                  exact .stStore rfl d1 d3
                · skip
                  rcases ite_or h with ⟨_, h⟩ | ⟨_, h⟩
                  · skip
                    obtain ⟨⟨v1, q1⟩, h1, h⟩ := bind_some h
                    dsimp only at h
                    obtain ⟨⟨v2, q2⟩, h2, h⟩ := bind_some h
                    dsimp only at h
                    obtain ⟨⟨v3, q3⟩, h3, h⟩ := bind_some h
                    dsimp only at h
                    obtain ⟨rfl, rfl⟩ := some_pair h
                    obtain ⟨w1, k1, d1⟩ := hr _ _ _ _ h1
                    obtain ⟨a1, b1, k2⟩ := expect_ok rfl h2
                    obtain ⟨w2, k3, d3⟩ := hr _ _ _ _ h3
                    have ok : Ok s (w1 ++ ⟨a1, .equals, b1⟩ :: w2) q3 := by
                      have := k1.trans (k2.trans (k3))
                      simpa only [List.append_assoc, List.cons_append, List.nil_append] using this
                    refine ⟨_, ok, ?_⟩
                    exact .stBind rfl d1 d3
                  · skip
                    rcases ite_or h with ⟨_, h⟩ | ⟨_, h⟩
                    · skip
                      obtain ⟨⟨v1, q1⟩, h1, h⟩ := bind_some h
                      dsimp only at h
                      obtain ⟨⟨v2, q2⟩, h2, h⟩ := bind_some h
                      dsimp only at h
                      obtain ⟨⟨v3, q3⟩, h3, h⟩ := bind_some h
                      dsimp only at h
                      obtain ⟨⟨v4, q4⟩, h4, h⟩ := bind_some h
                      dsimp only at h
                      obtain ⟨rfl, rfl⟩ := some_pair h
                      obtain ⟨w1, k1, d1⟩ := hr _ _ _ _ h1
                      obtain ⟨w2, k2, d2⟩ := hr _ _ _ _ h2
                      obtain ⟨a1, b1, k3⟩ := expect_ok rfl h3
                      obtain ⟨w3, k4, d4⟩ := hr _ _ _ _ h4
                      have ok : Ok s (w1 ++ (w2 ++ ⟨a1, .colonEquals, b1⟩ :: w3)) q4 := by
                        have := k1.trans (k2.trans (k3.trans (k4)))
                        simpa only [List.append_assoc, List.cons_append, List.nil_append] using this
                      refine ⟨_, ok, ?_⟩
                      exact .stMapUpdate rfl d1 d2 d4
                    · skip
                      rcases ite_or h with ⟨_, h⟩ | ⟨_, h⟩
                      · skip
                        rcases ite_or h with ⟨_, h⟩ | ⟨_, h⟩
                        · skip
                          obtain ⟨⟨v1, q1⟩, h1, h⟩ := bind_some h
                          dsimp only at h
                          obtain ⟨⟨v2, q2⟩, h2, h⟩ := bind_some h
                          dsimp only at h
                          obtain ⟨⟨v3, q3⟩, h3, h⟩ := bind_some h
                          dsimp only at h
                          obtain ⟨⟨v4, q4⟩, h4, h⟩ := bind_some h
                          dsimp only at h
                          obtain ⟨⟨v5, q5⟩, h5, h⟩ := bind_some h
                          dsimp only at h
                          obtain ⟨rfl, rfl⟩ := some_pair h
                          obtain ⟨w1, k1, d1⟩ := hr _ _ _ _ h1
                          obtain ⟨a1, b1, k2⟩ := expect_ok rfl h2
                          obtain ⟨a2, b2, k3⟩ := expect_ok rfl h3
                          obtain ⟨w2, k4, d4⟩ := hr _ _ _ _ h4
                          obtain ⟨w3, k5, d5⟩ := hr _ _ _ _ h5
                          have ok : Ok s (w1 ++ ⟨a1, .leftArrow, b1⟩ :: ⟨a2, .exists_, b2⟩ :: (w2 ++ w3)) q5 := by
                            have := k1.trans (k2.trans (k3.trans (k4.trans (k5))))
                            simpa only [List.append_assoc, List.cons_append, List.nil_append] using this
                          refine ⟨_, ok, ?_⟩
                          exact .stMapGetExists rfl d1 d4 d5
                        · skip
                          rcases ite_or h with ⟨_, h⟩ | ⟨_, h⟩
                          · skip
                            rcases ite_or h with ⟨_, h⟩ | ⟨_, h⟩
                            · skip
                              obtain ⟨⟨v1, q1⟩, h1, h⟩ := bind_some h
                              dsimp only at h
                              obtain ⟨⟨v2, q2⟩, h2, h⟩ := bind_some h
                              dsimp only at h
                              obtain ⟨⟨v3, q3⟩, h3, h⟩ := bind_some h
                              dsimp only at h
                              obtain ⟨⟨v4, q4⟩, h4, h⟩ := bind_some h
                              dsimp only at h
                              obtain ⟨⟨v5, q5⟩, h5, h⟩ := bind_some h
                              dsimp only at h
                              obtain ⟨rfl, rfl⟩ := some_pair h
                              obtain ⟨w1, k1, d1⟩ := hr _ _ _ _ h1
                              obtain ⟨a1, b1, k2⟩ := expect_ok rfl h2
                              obtain ⟨a2, b2, k3⟩ := expect_ok rfl h3
                              obtain ⟨w2, k4, d4⟩ := hr _ _ _ _ h4
                              obtain ⟨w3, k5, d5⟩ := hr _ _ _ _ h5
                              have ok : Ok s (w1 ++ ⟨a1, .leftArrow, b1⟩ :: ⟨a2, .ampersand, b2⟩ :: (w2 ++ w3)) q5 := by
                                have := k1.trans (k2.trans (k3.trans (k4.trans (k5))))
                                simpa only [List.append_assoc, List.cons_append, List.nil_append] using this
                              refine ⟨_, ok, ?_⟩
                              exact .stReadBC rfl d1 d4 d5
                            · skip
                              obtain ⟨⟨v1, q1⟩, h1, h⟩ := bind_some h
                              dsimp only at h
                              obtain ⟨rfl, rfl⟩ := some_pair h
                              obtain ⟨w, k1, d1⟩ := hr _ _ _ _ h1
                              have ok : Ok s (w) q1 := by
                                have := k1
                                simpa only [List.append_assoc, List.cons_append, List.nil_append] using this
                              refine ⟨_, ok, ?_⟩
                              exact .stRemote d1
                          · skip
                            rcases ite_or h with ⟨_, h⟩ | ⟨_, h⟩
                            · skip
                              obtain ⟨⟨v1, q1⟩, h1, h⟩ := bind_some h
                              dsimp only at h
                              obtain ⟨⟨v2, q2⟩, h2, h⟩ := bind_some h
                              dsimp only at h
                              obtain ⟨⟨v3, q3⟩, h3, h⟩ := bind_some h
                              dsimp only at h
                              obtain ⟨⟨v4, q4⟩, h4, h⟩ := bind_some h
                              dsimp only at h
                              obtain ⟨rfl, rfl⟩ := some_pair h
                              obtain ⟨w1, k1, d1⟩ := hr _ _ _ _ h1
                              obtain ⟨a1, b1, k2⟩ := expect_ok rfl h2
                              obtain ⟨w2, k3, d3⟩ := hr _ _ _ _ h3
                              obtain ⟨w3, k4, d4⟩ := hr _ _ _ _ h4
                              have ok : Ok s (w1 ++ ⟨a1, .leftArrow, b1⟩ :: (w2 ++ w3)) q4 := by
                                have := k1.trans (k2.trans (k3.trans (k4)))
                                simpa only [List.append_assoc, List.cons_append, List.nil_append] using this
                              refine ⟨_, ok, ?_⟩
                              exact .stMapGet rfl d1 d3 d4
                            · skip
                              obtain ⟨⟨v1, q1⟩, h1, h⟩ := bind_some h
                              dsimp only at h
                              obtain ⟨⟨v2, q2⟩, h2, h⟩ := bind_some h
                              dsimp only at h
                              obtain ⟨⟨v3, q3⟩, h3, h⟩ := bind_some h
                              dsimp only at h
                              obtain ⟨rfl, rfl⟩ := some_pair h
                              obtain ⟨w1, k1, d1⟩ := hr _ _ _ _ h1
                              obtain ⟨a1, b1, k2⟩ := expect_ok rfl h2
                              obtain ⟨w2, k3, d3⟩ := hr _ _ _ _ h3
                              have ok : Ok s (w1 ++ ⟨a1, .leftArrow, b1⟩ :: w2) q3 := by
                                have := k1.trans (k2.trans (k3))
                                simpa only [List.append_assoc, List.cons_append, List.nil_append] using this
                              refine ⟨_, ok, ?_⟩
                              exact .stLoad rfl d1 d3
                      · skip
                        obtain ⟨⟨v1, q1⟩, h1, h⟩ := bind_some h
                        dsimp only at h
                        obtain ⟨⟨v2, q2⟩, h2, h⟩ := bind_some h
                        dsimp only at h
                        obtain ⟨rfl, rfl⟩ := some_pair h
                        obtain ⟨w1, k1, d1⟩ := hr _ _ _ _ h1
                        obtain ⟨w2, k2, d2⟩ := hr _ _ _ _ h2
                        have ok : Ok s (w1 ++ w2) q2 := by
                          have := k1.trans (k2)
                          simpa only [List.append_assoc, List.cons_append, List.nil_append] using this
                        refine ⟨_, ok, ?_⟩
                        exact .stCall rfl d1 d2

theorem pNextStatement_sound (hr : Sound r) {s s' : PS} {v : Val .nextStatement}
    (h : pNextStatement r s = some (v, s')) : ∃ w, Ok s w s' ∧ Derives .nextStatement w v := by
  simp only [pNextStatement] at h
  obtain ⟨⟨v1, q1⟩, h1, h⟩ := bind_some h
  dsimp only at h
  have h2 := h
  obtain ⟨a1, b1, k1⟩ := expect_ok rfl h1
  obtain ⟨w1, k2, d2⟩ := hr _ _ _ _ h2
  have ok : Ok s (⟨a1, .semicolon, b1⟩ :: w1) s' := by
    have := k1.trans (k2)
    simpa only [List.append_assoc, List.cons_append, List.nil_append] using this
  refine ⟨_, ok, ?_⟩
  exact .nextStatement rfl d2

theorem pStmtBlock_sound (hr : Sound r) {s s' : PS} {v : Val .stmtBlock}
    (h : pStmtBlock r s = some (v, s')) : ∃ w, Ok s w s' ∧ Derives .stmtBlock w v := by
  simp only [pStmtBlock] at h
  obtain ⟨⟨v1, q1⟩, h1, h⟩ := bind_some h
  dsimp only at h
  obtain ⟨⟨v2, q2⟩, h2, h⟩ := bind_some h
  dsimp only at h
  obtain ⟨rfl, rfl⟩ := some_pair h
  obtain ⟨w1, k1, d1⟩ := hr _ _ _ _ h1
  obtain ⟨w2, k2, d2⟩ := hr _ _ _ _ h2
  have ok : Ok s (w1 ++ w2) q2 := by
    have := k1.trans (k2)
    simpa only [List.append_assoc, List.cons_append, List.nil_append] using this
  refine ⟨_, ok, ?_⟩
  simp only [ok.wrap (by simp [d1.ne_nil rfl])]
  exact .stmtBlock rfl d1 d2

theorem pBcFetchArgs_sound (hr : Sound r) {s s' : PS} {v : Val .bcFetchArgs}
    (h : pBcFetchArgs r s = some (v, s')) : ∃ w, Ok s w s' ∧ Derives .bcFetchArgs w v := by
  simp only [pBcFetchArgs] at h
  obtain ⟨⟨v1, q1⟩, h1, h⟩ := bind_some h
  dsimp only at h
  obtain ⟨⟨v2, q2⟩, h2, h⟩ := bind_some h
  dsimp only at h
  obtain ⟨⟨v3, q3⟩, h3, h⟩ := bind_some h
  dsimp only at h
  obtain ⟨rfl, rfl⟩ := some_pair h
  obtain ⟨a1, b1, k1⟩ := expect_ok rfl h1
  obtain ⟨w1, k2, d2⟩ := hr _ _ _ _ h2
  obtain ⟨a2, b2, k3⟩ := expect_ok rfl h3
  have ok : Ok s (⟨a1, .openParen, b1⟩ :: (w1 ++ [⟨a2, .closeParen, b2⟩])) q3 := by
    have := k1.trans (k2.trans (k3))
    simpa only [List.append_assoc, List.cons_append, List.nil_append] using this
  refine ⟨_, ok, ?_⟩
  exact .bcFetchArgs rfl d2

theorem pComponentId_sound (hr : Sound r) {s s' : PS} {v : Val .componentId}
    (h : pComponentId r s = some (v, s')) : ∃ w, Ok s w s' ∧ Derives .componentId w v := by
  simp only [pComponentId] at h
  rcases ite_or h with ⟨_, h⟩ | ⟨_, h⟩
  · skip
    obtain ⟨⟨v1, q1⟩, h1, h⟩ := bind_some h
    dsimp only at h
    obtain ⟨rfl, rfl⟩ := some_pair h
    obtain ⟨w, k1, d1⟩ := hr _ _ _ _ h1
    have ok : Ok s (w) q1 := by
      have := k1
      simpa only [List.append_assoc, List.cons_append, List.nil_append] using this
    refine ⟨_, ok, ?_⟩
    simp only [ok.wrap (by simp [d1.ne_nil rfl])]
    exact .componentRegular d1
  · skip
    obtain ⟨⟨v1, q1⟩, h1, h⟩ := bind_some h
    dsimp only at h
    obtain ⟨rfl, rfl⟩ := some_pair h
    obtain ⟨w, k1, d1⟩ := hr _ _ _ _ h1
    have ok : Ok s (w) q1 := by
      have := k1
      simpa only [List.append_assoc, List.cons_append, List.nil_append] using this
    refine ⟨_, ok, ?_⟩
    simp only [ok.wrap (by simp [d1.ne_nil rfl])]
    exact .componentType d1

theorem pPmClause_sound (hr : Sound r) {s s' : PS} {v : Val .pmClause}
    (h : pPmClause r s = some (v, s')) : ∃ w, Ok s w s' ∧ Derives .pmClause w v := by
  simp only [pPmClause] at h
  obtain ⟨⟨v1, q1⟩, h1, h⟩ := bind_some h
  dsimp only at h
  obtain ⟨⟨v2, q2⟩, h2, h⟩ := bind_some h
  dsimp only at h
  obtain ⟨⟨v3, q3⟩, h3, h⟩ := bind_some h
  dsimp only at h
  obtain ⟨⟨v4, q4⟩, h4, h⟩ := bind_some h
  dsimp only at h
  obtain ⟨rfl, rfl⟩ := some_pair h
  obtain ⟨a1, b1, k1⟩ := expect_ok rfl h1
  obtain ⟨w1, k2, d2⟩ := hr _ _ _ _ h2
  obtain ⟨a2, b2, k3⟩ := expect_ok rfl h3
  obtain ⟨w2, k4, d4⟩ := hr _ _ _ _ h4
  have ok : Ok s (⟨a1, .pipe, b1⟩ :: (w1 ++ ⟨a2, .doubleArrow, b2⟩ :: w2)) q4 := by
    have := k1.trans (k2.trans (k3.trans (k4)))
    simpa only [List.append_assoc, List.cons_append, List.nil_append] using this
  refine ⟨_, ok, ?_⟩
  simp only [ok.wrap (by simp)]
  exact .pmClause rfl d2 d4

theorem pRemoteFetch_sound (hr : Sound r) {s s' : PS} {v : Val .remoteFetch}
    (h : pRemoteFetch r s = some (v, s')) : ∃ w, Ok s w s' ∧ Derives .remoteFetch w v := by
  simp only [pRemoteFetch] at h
  obtain ⟨⟨v1, q1⟩, h1, h⟩ := bind_some h
  dsimp only at h
  obtain ⟨⟨v2, q2⟩, h2, h⟩ := bind_some h
  dsimp only at h
  obtain ⟨⟨v3, q3⟩, h3, h⟩ := bind_some h
  dsimp only at h
  rcases ite_or h with ⟨_, h⟩ | ⟨_, h⟩
  · skip
    obtain ⟨⟨v4, q4⟩, h4, h⟩ := bind_some h
    dsimp only at h
    obtain ⟨⟨v5, q5⟩, h5, h⟩ := bind_some h
    dsimp only at h
    obtain ⟨⟨v6, q6⟩, h6, h⟩ := bind_some h
    dsimp only at h
    obtain ⟨⟨v7, q7⟩, h7, h⟩ := bind_some h
    dsimp only at h
    obtain ⟨⟨v8, q8⟩, h8, h⟩ := bind_some h
    dsimp only at h
    obtain ⟨rfl, rfl⟩ := some_pair h
    obtain ⟨w1, k1, d1⟩ := hr _ _ _ _ h1
    obtain ⟨a1, b1, k2⟩ := expect_ok rfl h2
    obtain ⟨a2, b2, k3⟩ := expect_ok rfl h3
    obtain ⟨a4, b4, k4⟩ := expect_ok rfl h4
    obtain ⟨w2, k5, d5⟩ := hr _ _ _ _ h5
    obtain ⟨a3, b3, k6⟩ := expect_ok rfl h6
    obtain ⟨w3, k7, d7⟩ := hr _ _ _ _ h7
    obtain ⟨w4, k8, d8⟩ := hr _ _ _ _ h8
    have ok : Ok s (w1 ++ ⟨a1, .leftArrow, b1⟩ :: ⟨a2, .ampersand, b2⟩ :: ⟨a4, .exists_, b4⟩ :: (w2 ++ ⟨a3, .dot, b3⟩ :: (w3 ++ w4))) q8 := by
      have := k1.trans (k2.trans (k3.trans (k4.trans (k5.trans (k6.trans (k7.trans (k8)))))))
      simpa only [List.append_assoc, List.cons_append, List.nil_append] using this
    refine ⟨_, ok, ?_⟩
    exact .rfExists rfl d1 d5 d7 d8
  · skip
    rcases ite_or h with ⟨_, h⟩ | ⟨_, h⟩
    · skip
      obtain ⟨⟨v4, q4⟩, h4, h⟩ := bind_some h
      dsimp only at h
      obtain ⟨⟨v5, q5⟩, h5, h⟩ := bind_some h
      dsimp only at h
      obtain ⟨⟨v6, q6⟩, h6, h⟩ := bind_some h
      dsimp only at h
      obtain ⟨rfl, rfl⟩ := some_pair h
      obtain ⟨w1, k1, d1⟩ := hr _ _ _ _ h1
      obtain ⟨a1, b1, k2⟩ := expect_ok rfl h2
      obtain ⟨a2, b2, k3⟩ := expect_ok rfl h3
      obtain ⟨w2, k4, d4⟩ := hr _ _ _ _ h4
      obtain ⟨a3, b3, k5⟩ := expect_ok rfl h5
      obtain ⟨w3, k6, d6⟩ := hr _ _ _ _ h6
      have ok : Ok s (w1 ++ ⟨a1, .leftArrow, b1⟩ :: ⟨a2, .ampersand, b2⟩ :: (w2 ++ ⟨a3, .dot, b3⟩ :: w3)) q6 := by
        have := k1.trans (k2.trans (k3.trans (k4.trans (k5.trans (k6)))))
        simpa only [List.append_assoc, List.cons_append, List.nil_append] using this
      refine ⟨_, ok, ?_⟩
      exact .rfSpecial rfl d1 d4 d6
    · skip
      rcases ite_or h with ⟨_, h⟩ | ⟨_, h⟩
      · skip
        rcases ite_or h with ⟨_, h⟩ | ⟨_, h⟩
        · skip
          obtain ⟨⟨v4, q4⟩, h4, h⟩ := bind_some h
          dsimp only at h
          obtain ⟨⟨v5, q5⟩, h5, h⟩ := bind_some h
          dsimp only at h
          obtain ⟨⟨v6, q6⟩, h6, h⟩ := bind_some h
          dsimp only at h
          obtain ⟨⟨v7, q7⟩, h7, h⟩ := bind_some h
          dsimp only at h
          obtain ⟨rfl, rfl⟩ := some_pair h
          obtain ⟨w1, k1, d1⟩ := hr _ _ _ _ h1
          obtain ⟨a1, b1, k2⟩ := expect_ok rfl h2
          obtain ⟨a2, b2, k3⟩ := expect_ok rfl h3
          obtain ⟨w2, k4, d4⟩ := hr _ _ _ _ h4
          obtain ⟨a3, b3, k5⟩ := expect_ok rfl h5
          obtain ⟨w3, k6, d6⟩ := hr _ _ _ _ h6
          obtain ⟨w4, k7, d7⟩ := hr _ _ _ _ h7
          have ok : Ok s (w1 ++ ⟨a1, .leftArrow, b1⟩ :: ⟨a2, .ampersand, b2⟩ :: (w2 ++ ⟨a3, .dot, b3⟩ :: (w3 ++ w4))) q7 := by
            have := k1.trans (k2.trans (k3.trans (k4.trans (k5.trans (k6.trans (k7))))))
            simpa only [List.append_assoc, List.cons_append, List.nil_append] using this
          refine ⟨_, ok, ?_⟩
          exact .rfMap rfl d1 d4 d6 d7
        · skip
          obtain ⟨⟨v4, q4⟩, h4, h⟩ := bind_some h
          dsimp only at h
          obtain ⟨⟨v5, q5⟩, h5, h⟩ := bind_some h
          dsimp only at h
          obtain ⟨⟨v6, q6⟩, h6, h⟩ := bind_some h
          dsimp only at h
          obtain ⟨rfl, rfl⟩ := some_pair h
          obtain ⟨w1, k1, d1⟩ := hr _ _ _ _ h1
          obtain ⟨a1, b1, k2⟩ := expect_ok rfl h2
          obtain ⟨a2, b2, k3⟩ := expect_ok rfl h3
          obtain ⟨w2, k4, d4⟩ := hr _ _ _ _ h4
          obtain ⟨a3, b3, k5⟩ := expect_ok rfl h5
          obtain ⟨w3, k6, d6⟩ := hr _ _ _ _ h6
          have ok : Ok s (w1 ++ ⟨a1, .leftArrow, b1⟩ :: ⟨a2, .ampersand, b2⟩ :: (w2 ++ ⟨a3, .dot, b3⟩ :: w3)) q6 := by
            have := k1.trans (k2.trans (k3.trans (k4.trans (k5.trans (k6)))))
            simpa only [List.append_assoc, List.cons_append, List.nil_append] using this
          refine ⟨_, ok, ?_⟩
          exact .rfState rfl d1 d4 d6
      · skip
        obtain ⟨⟨v4, q4⟩, h4, h⟩ := bind_some h
        dsimp only at h
        obtain ⟨⟨v5, q5⟩, h5, h⟩ := bind_some h
        dsimp only at h
        obtain ⟨⟨v6, q6⟩, h6, h⟩ := bind_some h
        dsimp only at h
        obtain ⟨rfl, rfl⟩ := some_pair h
        obtain ⟨w1, k1, d1⟩ := hr _ _ _ _ h1
        obtain ⟨a1, b1, k2⟩ := expect_ok rfl h2
        obtain ⟨a2, b2, k3⟩ := expect_ok rfl h3
        obtain ⟨w2, k4, d4⟩ := hr _ _ _ _ h4
        obtain ⟨a3, b3, k5⟩ := expect_ok rfl h5
        obtain ⟨w3, k6, d6⟩ := hr _ _ _ _ h6
        have ok : Ok s (w1 ++ ⟨a1, .leftArrow, b1⟩ :: ⟨a2, .ampersand, b2⟩ :: (w2 ++ ⟨a3, .as_, b3⟩ :: w3)) q6 := by
          have := k1.trans (k2.trans (k3.trans (k4.trans (k5.trans (k6)))))
          simpa only [List.append_assoc, List.cons_append, List.nil_append] using this
        refine ⟨_, ok, ?_⟩
        exact .rfCast rfl d1 d4 d6

theorem pMapAccess_sound (hr : Sound r) {s s' : PS} {v : Val .mapAccess}
    (h : pMapAccess r s = some (v, s')) : ∃ w, Ok s w s' ∧ Derives .mapAccess w v := by
  simp only [pMapAccess] at h
  obtain ⟨⟨v1, q1⟩, h1, h⟩ := bind_some h
  dsimp only at h
  obtain ⟨⟨v2, q2⟩, h2, h⟩ := bind_some h
  dsimp only at h
  obtain ⟨⟨v3, q3⟩, h3, h⟩ := bind_some h
  dsimp only at h
  obtain ⟨rfl, rfl⟩ := some_pair h
  obtain ⟨a1, b1, k1⟩ := expect_ok rfl h1
  obtain ⟨w1, k2, d2⟩ := hr _ _ _ _ h2
  obtain ⟨a2, b2, k3⟩ := expect_ok rfl h3
  have ok : Ok s (⟨a1, .openBracket, b1⟩ :: (w1 ++ [⟨a2, .closeBracket, b2⟩])) q3 := by
    have := k1.trans (k2.trans (k3))
    simpa only [List.append_assoc, List.cons_append, List.nil_append] using this
  refine ⟨_, ok, ?_⟩
  simp only [ok.wrap (by simp)]
  exact .mapAccess rfl d2

theorem pParamPair_sound (hr : Sound r) {s s' : PS} {v : Val .paramPair}
    (h : pParamPair r s = some (v, s')) : ∃ w, Ok s w s' ∧ Derives .paramPair w v := by
  simp only [pParamPair] at h
  obtain ⟨⟨v1, q1⟩, h1, h⟩ := bind_some h
  dsimp only at h
  obtain ⟨rfl, rfl⟩ := some_pair h
  obtain ⟨w, k1, d1⟩ := hr _ _ _ _ h1
  have ok : Ok s (w) q1 := by
    have := k1
    simpa only [List.append_assoc, List.cons_append, List.nil_append] using this
  refine ⟨_, ok, ?_⟩
  simp only [ok.wrap (by simp [d1.ne_nil rfl])]
  exact .paramPair d1

theorem pNextParamPair_sound (hr : Sound r) {s s' : PS} {v : Val .nextParamPair}
    (h : pNextParamPair r s = some (v, s')) : ∃ w, Ok s w s' ∧ Derives .nextParamPair w v := by
  simp only [pNextParamPair] at h
  obtain ⟨⟨v1, q1⟩, h1, h⟩ := bind_some h
  dsimp only at h
  have h2 := h
  obtain ⟨a1, b1, k1⟩ := expect_ok rfl h1
  obtain ⟨w1, k2, d2⟩ := hr _ _ _ _ h2
  have ok : Ok s (⟨a1, .comma, b1⟩ :: w1) s' := by
    have := k1.trans (k2)
    simpa only [List.append_assoc, List.cons_append, List.nil_append] using this
  refine ⟨_, ok, ?_⟩
  exact .nextParamPair rfl d2

theorem pCompParams_sound (hr : Sound r) {s s' : PS} {v : Val .compParams}
    (h : pCompParams r s = some (v, s')) : ∃ w, Ok s w s' ∧ Derives .compParams w v := by
  simp only [pCompParams] at h
  obtain ⟨⟨v1, q1⟩, h1, h⟩ := bind_some h
  dsimp only at h
  obtain ⟨⟨v2, q2⟩, h2, h⟩ := bind_some h
  dsimp only at h
  obtain ⟨⟨v3, q3⟩, h3, h⟩ := bind_some h
  dsimp only at h
  obtain ⟨⟨v4, q4⟩, h4, h⟩ := bind_some h
  dsimp only at h
  obtain ⟨rfl, rfl⟩ := some_pair h
  obtain ⟨a1, b1, k1⟩ := expect_ok rfl h1
  obtain ⟨w1, k2, d2⟩ := hr _ _ _ _ h2
  obtain ⟨w2, k3, d3⟩ := hr _ _ _ _ h3
  obtain ⟨a2, b2, k4⟩ := expect_ok rfl h4
  have ok : Ok s (⟨a1, .openParen, b1⟩ :: (w1 ++ (w2 ++ [⟨a2, .closeParen, b2⟩]))) q4 := by
    have := k1.trans (k2.trans (k3.trans (k4)))
    simpa only [List.append_assoc, List.cons_append, List.nil_append] using this
  refine ⟨_, ok, ?_⟩
  simp only [ok.wrap (by simp)]
  exact .compParams rfl d2 d3

theorem pCompDef_sound (hr : Sound r) {s s' : PS} {v : Val .compDef}
    (h : pCompDef r s = some (v, s')) : ∃ w, Ok s w s' ∧ Derives .compDef w v := by
  simp only [pCompDef] at h
  rcases ite_or h with ⟨_, h⟩ | ⟨_, h⟩
  · skip
    obtain ⟨⟨v1, q1⟩, h1, h⟩ := bind_some h
    dsimp only at h
    obtain ⟨rfl, rfl⟩ := some_pair h
    obtain ⟨w, k1, d1⟩ := hr _ _ _ _ h1
    have ok : Ok s (w) q1 := by
      have := k1
      simpa only [List.append_assoc, List.cons_append, List.nil_append] using this
    refine ⟨_, ok, ?_⟩
    simp only [ok.wrap (by simp [d1.ne_nil rfl])]
    exact .compTransition d1
  · skip
    obtain ⟨⟨v1, q1⟩, h1, h⟩ := bind_some h
    dsimp only at h
    obtain ⟨rfl, rfl⟩ := some_pair h
    obtain ⟨w, k1, d1⟩ := hr _ _ _ _ h1
    have ok : Ok s (w) q1 := by
      have := k1
      simpa only [List.append_assoc, List.cons_append, List.nil_append] using this
    refine ⟨_, ok, ?_⟩
    simp only [ok.wrap (by simp [d1.ne_nil rfl])]
    exact .compProcedure d1

theorem pTransDef_sound (hr : Sound r) {s s' : PS} {v : Val .transDef}
    (h : pTransDef r s = some (v, s')) : ∃ w, Ok s w s' ∧ Derives .transDef w v := by
  simp only [pTransDef] at h
  obtain ⟨⟨v1, q1⟩, h1, h⟩ := bind_some h
  dsimp only at h
  obtain ⟨⟨v2, q2⟩, h2, h⟩ := bind_some h
  dsimp only at h
  obtain ⟨⟨v3, q3⟩, h3, h⟩ := bind_some h
  dsimp only at h
  obtain ⟨⟨v4, q4⟩, h4, h⟩ := bind_some h
  dsimp only at h
  obtain ⟨rfl, rfl⟩ := some_pair h
  obtain ⟨a1, b1, k1⟩ := expect_ok rfl h1
  obtain ⟨w1, k2, d2⟩ := hr _ _ _ _ h2
  obtain ⟨w2, k3, d3⟩ := hr _ _ _ _ h3
  obtain ⟨w3, k4, d4⟩ := hr _ _ _ _ h4
  have ok : Ok s (⟨a1, .transition, b1⟩ :: (w1 ++ (w2 ++ w3))) q4 := by
    have := k1.trans (k2.trans (k3.trans (k4)))
    simpa only [List.append_assoc, List.cons_append, List.nil_append] using this
  refine ⟨_, ok, ?_⟩
  simp only [ok.wrap (by simp)]
  exact .transDef rfl d2 d3 d4

theorem pProcDef_sound (hr : Sound r) {s s' : PS} {v : Val .procDef}
    (h : pProcDef r s = some (v, s')) : ∃ w, Ok s w s' ∧ Derives .procDef w v := by
  simp only [pProcDef] at h
  obtain ⟨⟨v1, q1⟩, h1, h⟩ := bind_some h
  dsimp only at h
  obtain ⟨⟨v2, q2⟩, h2, h⟩ := bind_some h
  dsimp only at h
  obtain ⟨⟨v3, q3⟩, h3, h⟩ := bind_some h
  dsimp only at h
  obtain ⟨⟨v4, q4⟩, h4, h⟩ := bind_some h
  dsimp only at h
  obtain ⟨rfl, rfl⟩ := some_pair h
  obtain ⟨a1, b1, k1⟩ := expect_ok rfl h1
  obtain ⟨w1, k2, d2⟩ := hr _ _ _ _ h2
  obtain ⟨w2, k3, d3⟩ := hr _ _ _ _ h3
  obtain ⟨w3, k4, d4⟩ := hr _ _ _ _ h4
  have ok : Ok s (⟨a1, .procedure, b1⟩ :: (w1 ++ (w2 ++ w3))) q4 := by
    have := k1.trans (k2.trans (k3.trans (k4)))
    simpa only [List.append_assoc, List.cons_append, List.nil_append] using this
  refine ⟨_, ok, ?_⟩
  simp only [ok.wrap (by simp)]
  exact .procDef rfl d2 d3 d4

theorem pCompBody_sound (hr : Sound r) {s s' : PS} {v : Val .compBody}
    (h : pCompBody r s = some (v, s')) : ∃ w, Ok s w s' ∧ Derives .compBody w v := by
  simp only [pCompBody] at h
  obtain ⟨⟨v1, q1⟩, h1, h⟩ := bind_some h
  dsimp only at h
  obtain ⟨⟨v2, q2⟩, h2, h⟩ := bind_some h
  dsimp only at h
  obtain ⟨rfl, rfl⟩ := some_pair h
  obtain ⟨w1, k1, d1⟩ := hr _ _ _ _ h1
  obtain ⟨a1, b1, k2⟩ := expect_ok rfl h2
  have ok : Ok s (w1 ++ [⟨a1, .end_, b1⟩]) q2 := by
    have := k1.trans (k2)
    simpa only [List.append_assoc, List.cons_append, List.nil_append] using this
  refine ⟨_, ok, ?_⟩
  simp only [ok.wrap (by simp)]
  exact .compBody rfl d1

theorem pContractDef_sound (hr : Sound r) {s s' : PS} {v : Val .contractDef}
    (h : pContractDef r s = some (v, s')) : ∃ w, Ok s w s' ∧ Derives .contractDef w v := by
  simp only [pContractDef] at h
  obtain ⟨⟨v1, q1⟩, h1, h⟩ := bind_some h
  dsimp only at h
  obtain ⟨⟨v2, q2⟩, h2, h⟩ := bind_some h
  dsimp only at h
  obtain ⟨⟨v3, q3⟩, h3, h⟩ := bind_some h
  dsimp only at h
  obtain ⟨⟨v4, q4⟩, h4, h⟩ := bind_some h
  dsimp only at h
  obtain ⟨⟨v5, q5⟩, h5, h⟩ := bind_some h
  dsimp only at h
  obtain ⟨⟨v6, q6⟩, h6, h⟩ := bind_some h
  dsimp only at h
  obtain ⟨rfl, rfl⟩ := some_pair h
  obtain ⟨a1, b1, k1⟩ := expect_ok rfl h1
  obtain ⟨w1, k2, d2⟩ := hr _ _ _ _ h2
  obtain ⟨w2, k3, d3⟩ := hr _ _ _ _ h3
  obtain ⟨w3, k4, d4⟩ := hr _ _ _ _ h4
  obtain ⟨w4, k5, d5⟩ := hr _ _ _ _ h5
  obtain ⟨w5, k6, d6⟩ := hr _ _ _ _ h6
  have ok : Ok s (⟨a1, .contract, b1⟩ :: (w1 ++ (w2 ++ (w3 ++ (w4 ++ w5))))) q6 := by
    have := k1.trans (k2.trans (k3.trans (k4.trans (k5.trans (k6)))))
    simpa only [List.append_assoc, List.cons_append, List.nil_append] using this
  refine ⟨_, ok, ?_⟩
  simp only [ok.wrap (by simp)]
  exact .contractDef rfl d2 d3 d4 d5 d6

theorem pContractField_sound (hr : Sound r) {s s' : PS} {v : Val .contractField}
    (h : pContractField r s = some (v, s')) : ∃ w, Ok s w s' ∧ Derives .contractField w v := by
  simp only [pContractField] at h
  obtain ⟨⟨v1, q1⟩, h1, h⟩ := bind_some h
  dsimp only at h
  obtain ⟨⟨v2, q2⟩, h2, h⟩ := bind_some h
  dsimp only at h
  obtain ⟨⟨v3, q3⟩, h3, h⟩ := bind_some h
  dsimp only at h
  obtain ⟨⟨v4, q4⟩, h4, h⟩ := bind_some h
  dsimp only at h
  obtain ⟨rfl, rfl⟩ := some_pair h
  obtain ⟨a1, b1, k1⟩ := expect_ok rfl h1
  obtain ⟨w1, k2, d2⟩ := hr _ _ _ _ h2
  obtain ⟨a2, b2, k3⟩ := expect_ok rfl h3
  obtain ⟨w2, k4, d4⟩ := hr _ _ _ _ h4
  have ok : Ok s (⟨a1, .field, b1⟩ :: (w1 ++ ⟨a2, .equals, b2⟩ :: w2)) q4 := by
    have := k1.trans (k2.trans (k3.trans (k4)))
    simpa only [List.append_assoc, List.cons_append, List.nil_append] using this
  refine ⟨_, ok, ?_⟩
  simp only [ok.wrap (by simp)]
  exact .contractField rfl d2 d4

theorem pWithConstraint_sound (hr : Sound r) {s s' : PS} {v : Val .withConstraint}
    (h : pWithConstraint r s = some (v, s')) : ∃ w, Ok s w s' ∧ Derives .withConstraint w v := by
  simp only [pWithConstraint] at h
  obtain ⟨⟨v1, q1⟩, h1, h⟩ := bind_some h
  dsimp only at h
  obtain ⟨⟨v2, q2⟩, h2, h⟩ := bind_some h
  dsimp only at h
  obtain ⟨⟨v3, q3⟩, h3, h⟩ := bind_some h
  dsimp only at h
  obtain ⟨rfl, rfl⟩ := some_pair h
  obtain ⟨a1, b1, k1⟩ := expect_ok rfl h1
  obtain ⟨w1, k2, d2⟩ := hr _ _ _ _ h2
  obtain ⟨a2, b2, k3⟩ := expect_ok rfl h3
  have ok : Ok s (⟨a1, .with_, b1⟩ :: (w1 ++ [⟨a2, .doubleArrow, b2⟩])) q3 := by
    have := k1.trans (k2.trans (k3))
    simpa only [List.append_assoc, List.cons_append, List.nil_append] using this
  refine ⟨_, ok, ?_⟩
  simp only [ok.wrap (by simp)]
  exact .withConstraint rfl d2


theorem body_sound (hr : Sound r) : Sound (body r) := by
  intro n s v s' h
  cases n with
  | byteString => exact pByteString_sound h
  | typeName => exact pTypeName_sound hr h
  | importedName => exact pImportedName_sound hr h
  | importDecls => exact pImportDecls_sound hr h
  | metaId => exact pMetaId_sound hr h
  | varId => exact pVarId_sound hr h
  | builtinArgs => exact pBuiltinArgs_sound hr h
  | remaining => exact pRemaining_sound hr h
  | funSig => exact pFunSig_sound hr h
  | scillaType => exact pScillaType_sound hr h
  | typeArg => exact pTypeArg_sound hr h
  | addressType => exact pAddressType_sound hr h
  | addressFieldList => exact pAddressFieldList_sound hr h
  | nextAddressField => exact pNextAddressField_sound hr h
  | addressField => exact pAddressField_sound hr h
  | mapKey => exact pMapKey_sound hr h
  | mapValue => exact pMapValue_sound hr h
  | mapValueArgs => exact pMapValueArgs_sound hr h
  | program => exact pProgram_sound hr h
  | libraryDef => exact pLibraryDef_sound hr h
  | librarySingle => exact pLibrarySingle_sound hr h
  | typedId => exact pTypedId_sound hr h
  | typeAnn => exact pTypeAnn_sound hr h
  | typeAlt => exact pTypeAlt_sound hr h
  | mapValueAllowing => exact pMapValueAllowing_sound hr h
  | contractTypeArgs => exact pContractTypeArgs_sound hr h
  | fullExpr => exact pFullExpr_sound hr h
  | pmExprClause => exact pPmExprClause_sound hr h
  | pattern => exact pPattern_sound hr h
  | argPattern => exact pArgPattern_sound hr h
  | nextMessage => exact pNextMessage_sound hr h
  | messageEntry => exact pMessageEntry_sound hr h
  | atomic => exact pAtomic_sound hr h
  | valueLit => exact pValueLit_sound hr h
  | statement => exact pStatement_sound hr h
  | nextStatement => exact pNextStatement_sound hr h
  | stmtBlock => exact pStmtBlock_sound hr h
  | bcFetchArgs => exact pBcFetchArgs_sound hr h
  | componentId => exact pComponentId_sound hr h
  | pmClause => exact pPmClause_sound hr h
  | remoteFetch => exact pRemoteFetch_sound hr h
  | mapAccess => exact pMapAccess_sound hr h
  | paramPair => exact pParamPair_sound hr h
  | nextParamPair => exact pNextParamPair_sound hr h
  | compParams => exact pCompParams_sound hr h
  | compDef => exact pCompDef_sound hr h
  | transDef => exact pTransDef_sound hr h
  | procDef => exact pProcDef_sound hr h
  | compBody => exact pCompBody_sound hr h
  | contractDef => exact pContractDef_sound hr h
  | contractField => exact pContractField_sound hr h
  | withConstraint => exact pWithConstraint_sound hr h
  | hexNumber =>
    obtain ⟨a, t, b, hk, ok, rfl⟩ := textTok_ok h
    obtain ⟨x, rfl⟩ := kind_hex hk
    exact ⟨_, ok, .hexNumber rfl⟩
  | signedInt =>
    obtain ⟨a, t, b, hk, ok, rfl⟩ := textTok_ok h
    obtain ⟨x, rfl⟩ := kind_num hk
    exact ⟨_, ok, .signedInt rfl⟩
  | regularId =>
    obtain ⟨a, t, b, hk, ok, rfl⟩ := textTok_ok h
    obtain ⟨x, rfl⟩ := kind_id hk
    exact ⟨_, ok, .regularId rfl⟩
  | specialId =>
    obtain ⟨a, t, b, hk, ok, rfl⟩ := textTok_ok h
    obtain ⟨x, rfl⟩ := kind_sp hk
    exact ⟨_, ok, .specialId rfl⟩
  | customId =>
    obtain ⟨a, t, b, hk, ok, rfl⟩ := textTok_ok h
    obtain ⟨x, rfl⟩ := kind_cu hk
    exact ⟨_, ok, .customId rfl⟩
  | templateId =>
    obtain ⟨a, t, b, hk, ok, rfl⟩ := textTok_ok h
    obtain ⟨x, rfl⟩ := kind_te hk
    exact ⟨_, ok, .templateId rfl⟩
  | stringLit =>
    obtain ⟨a, t, b, hk, ok, rfl⟩ := textTok_ok h
    obtain ⟨x, rfl⟩ := kind_st hk
    exact ⟨_, ok, .stringLit rfl⟩
  | star n => exact pStar_sound hr h
  | plus n => exact pPlus_sound hr h
  | opt n => exact pOpt_sound hr h

theorem parse_sound (k : Nat) : Sound (parse k) := by
  induction k with
  | zero => intro n s v s' h; simp [parse] at h
  | succ k ih => exact body_sound ih

/-- Everything the parser accepts is derivable by the grammar from exactly the given tokens. -/
theorem parseProgram_sound {toks : List STok} {p : NodeProgram} (h : parseProgram toks = some p) :
    Derives .program toks p := by
  unfold parseProgram at h
  split at h
  · rename_i p' s' hp
    split at h
    · rename_i hs
      injection h with h; subst h
      obtain ⟨w, ⟨h1, _⟩, hd⟩ := parse_sound _ _ _ _ _ hp
      simp [hs] at h1
      subst h1; exact hd
    · simp at h
  · simp at h

end Verif
