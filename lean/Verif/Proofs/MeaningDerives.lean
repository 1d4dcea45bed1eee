import Verif.Proofs.Meaning
namespace Verif

theorem readFields_cons {x : NodeVariableIdentifier} {a b c d : Pos} {t : W NodeScillaType}
    {vs : List (W NodeAddressTypeField)} {ls : List Str} {fs : List Field}
    (h : readFields (⟨.mk ⟨x, a, b⟩ t, c, d⟩ :: vs) = .ok (ls, fs)) :
    ∃ y l ty ls' fs', x = .variableName y ∧ readTypeW t = .clean l (some ty) ∧ readFields vs = .ok (ls', fs') ∧
      ls = ls' ++ l ∧ fs = ⟨y.node, ty⟩ :: fs' := by
  cases x with
  | variableName y =>
    rw [readFields] at h
    cases e : readTypeW t with
    | bad w => rw [e] at h; cases w <;> simp at h
    | clean l o =>
      rw [e] at h
      cases o with
      | none => simp at h
      | some ty =>
        simp only at h
        cases e' : readFields vs with
        | error w => rw [e'] at h; simp at h
        | ok r =>
          obtain ⟨ls', fs'⟩ := r
          rw [e'] at h
          simp only [Except.ok.injEq, Prod.mk.injEq] at h
          exact ⟨y, l, ty, ls', fs', rfl, rfl, rfl, h.1.symm, h.2.symm⟩
  | specialIdentifier y => simp [readFields] at h
  | variableInNamespace n y => simp [readFields] at h

theorem readAddr_inv {i : W NodeTypeNameIdentifier} {tag : W Str} {fs : List (W NodeAddressTypeField)} {l : List Str}
    {o : Option Ty} (h : readAddr (.mk i tag fs) = .clean l o) :
    ∃ s gs, plainName i.node = some s ∧ readFields fs = .ok (l, gs) ∧ o = addressType s tag.node gs := by
  rw [readAddr] at h
  cases e : plainName i.node with
  | none => simp [e] at h
  | some s =>
    cases e' : readFields fs with
    | error w => simp [e, e'] at h
    | ok r =>
      obtain ⟨k, gs⟩ := r
      simp only [e, e', Reading.clean.injEq] at h
      exact ⟨s, gs, rfl, by rw [h.1], h.2.symm⟩

theorem Derives.says {n : NT} {w : List STok} {v : Val n} (d : Derives n w v) : SaysClaim n w v := by
  induction d
  case starNil n =>
    cases n
    case typeArg => exact AllRead.nil _
    case mapValueArgs => exact AllRead.nil _
    case nextAddressField =>
      intro ls fs h
      simp only [readFields, Except.ok.injEq, Prod.mk.injEq] at h
      obtain ⟨rfl, rfl⟩ := h
      exact .noFields
    all_goals trivial
  case starCons n w1 v w2 vs _ _ ih ih' =>
    cases n
    case typeArg => rw [SaysClaim, wordsOf_append, readArgs]; exact AllRead.cons ih ih'
    case mapValueArgs => rw [SaysClaim, wordsOf_append, readMvas]; exact AllRead.cons ih ih'
    case nextAddressField =>
      intro ls fs h
      obtain ⟨x, u, l, t, ls', fs', h1, h2, h3, rfl, rfl⟩ := ih _ _ _ h
      rw [wordsOf_append, h1]
      exact .field h2 (ih' _ _ h3)
    all_goals trivial
  case plusIntro n w1 v w2 vs _ _ ih ih' =>
    cases n
    case mapValueArgs => rw [SaysClaim, wordsOf_append, readMvas]; exact AllRead.cons ih ih'
    all_goals trivial
  case optNone n => cases n <;> first | trivial | exact .inl ⟨rfl, rfl⟩
  case optSome n w v _ ih => cases n <;> first | trivial | exact .inr ⟨_, rfl, ih⟩
  case hexNumber => subst_vars; rfl
  case regularId => subst_vars; rfl
  case specialId => subst_vars; rfl
  case customId => subst_vars; rfl
  case byteString => subst_vars; exact ⟨_, _, rfl, rfl, rfl⟩
  case typeNameBytes w b _ ih =>
    intro s h
    obtain ⟨x, t, h1, h2, rfl⟩ := ih
    simp only [mkW, plainName, h2] at h
    split at h
    · simp at h
    · rename_i hp
      simp only [Option.some.injEq] at h
      subst h
      exact ⟨_, h1, .bytes _ hp⟩
  case typeNameEvent => intro s h; simp [mkW, plainName] at h
  case typeNameCustom w c _ ih =>
    intro s h
    simp only [mkW, plainName] at h
    split at h
    · simp at h
    · rename_i hp
      simp only [Option.some.injEq] at h
      subst h
      exact ⟨_, ih, .upper _ hp⟩
  case metaName w n _ ih =>
    intro l s h
    simp only [mkW, metaText, Option.map_eq_some_iff, Prod.mk.injEq] at h
    obtain ⟨x, h, rfl, rfl⟩ := h
    obtain ⟨t, h1, h2⟩ := ih _ h
    rw [h1]; exact .word h2
  case metaNamespace a b hw _ _ ih ih' =>
    intro l s h
    simp only [mkW, metaText] at h
    split at h
    · rename_i x y hx hy
      simp only [Option.some.injEq, Prod.mk.injEq] at h
      obtain ⟨rfl, rfl⟩ := h
      obtain ⟨t, h1, h2⟩ := ih _ hx
      obtain ⟨t', h1', h2'⟩ := ih' _ hy
      subst hw
      rw [wordsOf_append, wordsOf_cons, h1, h1']
      exact .inNamespace h2 h2'
    · simp at h
  case metaHexspace hw _ _ ih ih' =>
    intro l s h
    simp only [mkW, metaText, Option.map_eq_some_iff, Prod.mk.injEq] at h
    obtain ⟨x, h, rfl, rfl⟩ := h
    obtain ⟨t', h1', h2'⟩ := ih' _ h
    subst hw
    rw [wordsOf_append, wordsOf_cons, ih, h1']
    exact .inHexspace h2'
  case metaByStr hw =>
    intro l s h
    simp only [mkW, metaText, Option.some.injEq, Prod.mk.injEq] at h
    obtain ⟨rfl, rfl⟩ := h
    subst hw
    exact .byStr
  case varName w n _ ih =>
    intro x a b h
    simp only [mkW, NodeVariableIdentifier.variableName.injEq] at h
    subst h
    exact ih
  case varSpecial => intro x a b h; simp [mkW] at h
  case varNamespace => intro x a b h; simp [mkW] at h
  case remGeneric hw _ _ ih ih' =>
    intro l o h
    simp only [mkW, readTypeW, readType] at h
    rw [hw, wordsOf_append]
    exact apply_says rfl ih ih' _ _ h
  case remMap hw _ _ ih ih' =>
    intro l o h
    simp only [mkW, readTypeW, readType] at h
    rw [hw, wordsOf_cons, wordsOf_append]
    exact map_says rfl ih ih' _ _ h
  case remParen hw _ ih =>
    intro l o h
    simp only [mkW, readTypeW, readType] at h
    rw [hw, wordsOf_cons, wordsOf_append]
    exact .parens rfl (ih _ _ h)
  case remAddress ih =>
    intro l o h
    simp only [mkW, readTypeW, readType] at h
    exact ih _ _ h _ rfl
  case remForall => intro l o h; simp [mkW, readTypeW, readType] at h
  case remTypeVar => intro l o h; simp [mkW, readTypeW, readType] at h
  case funSigMore => intro l o h; simp [mkW, readTypeW, readType] at h
  case funSigLast => intro l o h; simp [mkW, readTypeW, readType] at h
  case typeFun ih => intro l o h; exact absurd h (ih l o)
  case typeRem ih => exact ih
  case argParen hw _ ih =>
    intro l o h
    simp only [mkW, readArgW, readArg] at h
    rw [hw, wordsOf_cons, wordsOf_append]
    exact .parens rfl (ih _ _ h)
  case argMeta ih =>
    intro l o h
    simp only [mkW, readArgW, readArg] at h
    exact name_says rfl ih _ _ h
  case argTemplate => intro l o h; simp [mkW, readArgW, readArg] at h
  case argAddress ih =>
    intro l o h
    simp only [mkW, readArgW, readArg] at h
    exact ih _ _ h _ rfl
  case argMap hw _ _ ih ih' =>
    intro l o h
    simp only [mkW, readArgW, readArg] at h
    rw [hw, wordsOf_cons, wordsOf_append]
    exact map_says rfl ih ih' _ _ h
  case addrEmpty hw _ ih =>
    intro l o h p hp
    simp only [mkW, readAddrW] at h
    obtain ⟨s, gs, h1, h2, rfl⟩ := readAddr_inv h
    obtain ⟨t, h3, h4⟩ := ih _ h1
    simp only [readFields, Except.ok.injEq, Prod.mk.injEq] at h2
    obtain ⟨rfl, rfl⟩ := h2
    rw [hw, wordsOf_append, h3]
    exact .address hp h4 .none
  case addrContract hw _ _ ih ih' =>
    intro l o h p hp
    simp only [mkW, readAddrW] at h
    obtain ⟨s, gs, h1, h2, rfl⟩ := readAddr_inv h
    obtain ⟨t, h3, h4⟩ := ih _ h1
    rcases ih' with ⟨h5, rfl⟩ | ⟨vs, rfl, h5⟩
    · simp only [Option.getD_none, readFields, Except.ok.injEq, Prod.mk.injEq] at h2
      obtain ⟨rfl, rfl⟩ := h2
      rw [hw, wordsOf_append, wordsOf_cons, wordsOf_cons, wordsOf_append, h3, h5]
      exact .address hp h4 .contract
    · rw [Option.getD_some] at h2
      obtain ⟨x, u, us, l', ty, ls', fs', h6, h7, h8, rfl, rfl⟩ := h5 _ _ h2
      rw [hw, wordsOf_append, wordsOf_cons, wordsOf_cons, wordsOf_append, h3, h6]
      have := Says.addressFields (p := p) (x := x) hp h4 h7 h8
      simpa using this
  case addrLibrary hw _ ih =>
    intro l o h p hp
    simp only [mkW, readAddrW] at h
    obtain ⟨s, gs, h1, h2, rfl⟩ := readAddr_inv h
    obtain ⟨t, h3, h4⟩ := ih _ h1
    simp only [readFields, Except.ok.injEq, Prod.mk.injEq] at h2
    obtain ⟨rfl, rfl⟩ := h2
    rw [hw, wordsOf_append, h3]
    exact .address hp h4 .library
  case addrSpecial hw _ _ ih ih' =>
    intro l o h p hp
    simp only [mkW, readAddrW] at h
    obtain ⟨s, gs, h1, h2, rfl⟩ := readAddr_inv h
    obtain ⟨t, h3, h4⟩ := ih _ h1
    simp only [readFields, Except.ok.injEq, Prod.mk.injEq] at h2
    obtain ⟨rfl, rfl⟩ := h2
    rw [hw, wordsOf_append, wordsOf_cons, wordsOf_append, h3, ih']
    exact .address hp h4 (.special _)
  case addrFieldList hw _ _ ih ih' =>
    intro ls fs h
    obtain ⟨x, u, l, t, ls', fs', h1, h2, h3, rfl, rfl⟩ := ih _ _ _ h
    exact ⟨x, u, _, l, t, ls', fs', by rw [hw, wordsOf_append, h1]; simp, h2, ih' _ _ h3, rfl, rfl⟩
  case nextAddrField hw _ ih =>
    intro vs ls fs h
    obtain ⟨x, u, l, t, ls', fs', h1, h2⟩ := ih _ _ _ h
    exact ⟨x, u, l, t, ls', fs', by rw [hw, wordsOf_cons, h1], h2⟩
  case addrField w w1 w2 i t s1 e1 s2 e2 hw _ _ ih ih' =>
    intro vs ls fs h
    obtain ⟨x, a, b⟩ := i
    simp only [mkW] at h
    obtain ⟨y, l, ty, ls', fs', rfl, h2, h3, h4, h5⟩ := readFields_cons h
    exact ⟨y.node, wordsOf w2, l, ty, ls', fs', by rw [hw, wordsOf_cons, wordsOf_append, ih _ _ _ rfl]; simp, ih' _ _ h2, h3, h4, h5⟩
  case keyMeta ih =>
    intro l o h
    simp only [mkW, readKeyW, readKey] at h
    exact name_says rfl ih _ _ h
  case keyParenMeta hw _ ih =>
    intro l o h
    simp only [mkW, readKeyW, readKey, readName] at h
    split at h
    · rename_i k s e
      simp only [Reading.clean.injEq] at h
      obtain ⟨rfl, rfl⟩ := h
      rw [hw, wordsOf_cons, wordsOf_append]
      exact .parensKey (ih _ _ e)
    · simp at h
  case keyParenAddress => intro l o h; simp only [mkW, readKeyW, readKey] at h; exact (asKey_inv h).elim
  case keyAddress => intro l o h; simp only [mkW, readKeyW, readKey] at h; exact (asKey_inv h).elim
  case valMeta ih =>
    intro l o h
    simp only [mkW, readValueW, readValue] at h
    exact name_says rfl ih _ _ h
  case valMap hw _ _ ih ih' =>
    intro l o h
    simp only [mkW, readValueW, readValue, readEntryW, readEntry] at h
    rw [hw, wordsOf_cons, wordsOf_append]
    exact map_says rfl ih ih' _ _ h
  case valParen hw _ ih =>
    intro l o h
    simp only [mkW, readValueW, readValue] at h
    rw [hw, wordsOf_cons, wordsOf_append]
    exact .parens rfl (ih _ _ h)
  case valAddress ih =>
    intro l o h
    simp only [mkW, readValueW, readValue] at h
    exact ih _ _ h _ rfl
  case mvaParen hw _ ih =>
    intro l o h
    simp only [mkW, readMvaW, readMva] at h
    rw [hw, wordsOf_cons, wordsOf_append]
    exact .parens rfl (ih _ _ h)
  case mvaMeta ih =>
    intro l o h
    simp only [mkW, readMvaW, readMva] at h
    exact name_says rfl ih _ _ h
  case mvaMap => intro l o h; simp [mkW, readMvaW, readMva] at h
  case mvWithArgs hw _ _ ih ih' =>
    intro l o h
    simp only [mkW, readMvW, readMv] at h
    rw [hw, wordsOf_append]
    exact apply_says rfl ih ih' _ _ h
  case mvNoArgs ih =>
    intro l o h
    simp only [mkW, readMvW, readMv] at h
    exact (ih _ _ h).toParens
  all_goals trivial

end Verif
