import Verif.Spec.Meaning
import Verif.Proofs.PrintDerives
import Verif.Proofs.StripRead
/-
The meaning of tokens (`Spec/Meaning`) is what the syntax tree of these tokens is read as (`Spec/Interface`).
-/
namespace Verif

/-- the tokens `w` are derived at a place and the tree is read as `t` -/
def ReadsAt : Place → List Token → List Str → Option Ty → Prop
  | .alone, w, l, o => ∃ v, Derives .remaining (lift w) v ∧ readTypeW v = .clean l o
  | .argument, w, l, o => ∃ v, Derives .typeArg (lift w) v ∧ readArgW v = .clean l o
  | .key, w, l, o => ∃ v, Derives .mapKey (lift w) v ∧ readKeyW v = .clean l o
  | .value, w, l, o => ∃ v, Derives .mapValue (lift w) v ∧ readValueW v = .clean l o
  | .valueInParens, w, l, o => ∃ v, Derives .mapValueAllowing (lift w) v ∧ readMvW v = .clean l o
  | .valueArgument, w, l, o => ∃ v, Derives .mapValueArgs (lift w) v ∧ readMvaW v = .clean l o

def ReadsAllAt : Place → List Token → List Str → List (Option Ty) → Prop
  | .argument, w, l, os => ∃ vs, Derives (.star .typeArg) (lift w) vs ∧ ∀ s left acc,
      applyName.go s (readArgs vs) left acc = .clean (l ++ left) (namedType s (acc ++ os))
  | .valueArgument, w, l, os => ∃ vs, Derives (.star .mapValueArgs) (lift w) vs ∧ ∀ s left acc,
      applyName.go s (readMvas vs) left acc = .clean (l ++ left) (namedType s (acc ++ os))
  | _, _, _, _ => True

theorem derives_word {s : Str} {t : Token} (h : WordTok s t) : ∃ v, Derives .typeName (lift [t]) v ∧ plainName v.node = some s := by
  cases h with
  | upper hp => exact ⟨_, .typeNameCustom (.customId rfl), by simp [mkW, plainName, hp]⟩
  | bytes hp => exact ⟨_, .typeNameBytes (.byteString rfl), by simp [mkW, plainName, NodeByteStr.display, hp]⟩

theorem derives_nameSays {w : List Token} {l : List Str} {s : Str} (h : NameSays w l s) :
    ∃ m, Derives .metaId (lift w) m ∧ metaText m.node = some (l, s) := by
  cases h with
  | word h =>
    obtain ⟨v, d, e⟩ := derives_word h
    exact ⟨_, .metaName d, by simp [mkW, metaText, e]⟩
  | inNamespace h1 h2 =>
    obtain ⟨v1, d1, e1⟩ := derives_word h1
    obtain ⟨v2, d2, e2⟩ := derives_word h2
    exact ⟨_, .metaNamespace rfl d1 d2, by simp [mkW, metaText, e1, e2]⟩
  | inHexspace h2 =>
    obtain ⟨v2, d2, e2⟩ := derives_word h2
    exact ⟨_, .metaHexspace (w1 := lift [_]) rfl (.hexNumber rfl) d2, by simp [mkW, metaText, e2]⟩
  | byStr => exact ⟨_, .metaByStr rfl, by simp [mkW, metaText]⟩

theorem readName_says {m : NodeMetaIdentifier} {l : List Str} {s : Str} (h : metaText m = some (l, s)) :
    readName m = .clean l (namedType s []) := by simp [readName, h]

theorem readMap_clean (l : List Str) (k t : Option Ty) : readMap (.clean l k) (.clean [] t) = .clean l (mapOf k t) := by
  cases k <;> cases t <;> rfl

theorem readsAt_name {p : Place} {w : List Token} {l : List Str} {s : Str} (hp : p.name = true) (h : NameSays w l s) :
    ReadsAt p w l (namedType s []) := by
  obtain ⟨m, d, e⟩ := derives_nameSays h
  have e := readName_says e
  cases p <;> simp only [Place.name, Bool.false_eq_true] at hp
  · exact ⟨_, .argMeta d, by simp only [mkW, readArgW, readArg, e]⟩
  · exact ⟨_, .keyMeta d, by simp only [mkW, readKeyW, readKey, e]⟩
  · exact ⟨_, .valMeta d, by simp only [mkW, readValueW, readValue, e]⟩
  · exact ⟨_, .mvaMeta d, by simp only [mkW, readMvaW, readMva, e]⟩

theorem readsAt_apply {p q : Place} {w ws : List Token} {l ls : List Str} {s : Str} {os : List (Option Ty)}
    (hp : p.args = some q) (h : NameSays w l s) (ih : ReadsAllAt q ws ls os) :
    ReadsAt p (w ++ ws) (ls ++ l) (namedType s os) := by
  obtain ⟨m, d, e⟩ := derives_nameSays h
  cases p <;> simp only [Place.args, reduceCtorEq, Option.some.injEq] at hp <;> subst hp
  · obtain ⟨vs, ds, es⟩ := ih
    refine ⟨_, .remGeneric (by rw [lift_append]) d ds, ?_⟩
    simp only [mkW, readTypeW, readType, applyName, e, es, List.nil_append]
  · obtain ⟨vs, ds, es⟩ := ih
    cases vs with
    | nil =>
      have h0 := es s l []
      simp only [readMvas, applyName.go, Reading.clean.injEq, List.nil_append] at h0
      have : lift ws = [] := by generalize lift ws = u at ds; cases ds; rfl
      refine ⟨_, .mvNoArgs (.valMeta (w := lift (w ++ ws)) (by rw [lift_append, this, List.append_nil]; exact d)), ?_⟩
      simp only [mkW, readMvW, readMv, readValueW, readValue, readName_says e]
      rw [← h0.1, ← h0.2]
    | cons v vs =>
      generalize hu : lift ws = u at ds
      cases ds with
      | starCons d1 d2 =>
        refine ⟨_, .mvWithArgs (w2 := lift ws) (by rw [lift_append]) d (by rw [hu]; exact .plusIntro d1 d2), ?_⟩
        simp only [mkW, readMvW, readMv, applyName, e, es, List.nil_append]

theorem readsAt_map {p : Place} {w v : List Token} {l : List Str} {k t : Option Ty} (hp : p.compound = true)
    (ih : ReadsAt .key w l k) (ih' : ReadsAt .value v [] t) : ReadsAt p (.map :: (w ++ v)) l (mapOf k t) := by
  obtain ⟨a, da, ea⟩ := ih
  obtain ⟨b, db, eb⟩ := ih'
  have hw : lift (.map :: (w ++ v)) = ⟨default, .map, default⟩ :: (lift w ++ lift v) := by simp
  cases p <;> simp only [Place.compound, Bool.false_eq_true] at hp
  · exact ⟨_, .remMap hw da db, by simp only [mkW, readTypeW, readType, ea, eb, readMap_clean]⟩
  · exact ⟨_, .argMap hw da db, by simp only [mkW, readArgW, readArg, ea, eb, readMap_clean]⟩
  · exact ⟨_, .valMap hw da db, by simp only [mkW, readValueW, readValue, readEntryW, readEntry, ea, eb, readMap_clean]⟩
  · exact ⟨_, .mvNoArgs (.valMap hw da db), by
      simp only [mkW, readMvW, readMv, readValueW, readValue, readEntryW, readEntry, ea, eb, readMap_clean]⟩

theorem readsAt_addr {p : Place} {w : List Token} {l : List Str} {o : Option Ty} (hp : p.compound = true)
    (h : ∃ v, Derives .addressType (lift w) v ∧ readAddrW v = .clean l o) : ReadsAt p w l o := by
  obtain ⟨a, da, ea⟩ := h
  cases p <;> simp only [Place.compound, Bool.false_eq_true] at hp
  · exact ⟨_, .remAddress da, by simp only [mkW, readTypeW, readType, ea]⟩
  · exact ⟨_, .argAddress da, by simp only [mkW, readArgW, readArg, ea]⟩
  · exact ⟨_, .valAddress da, by simp only [mkW, readValueW, readValue, ea]⟩
  · exact ⟨_, .mvNoArgs (.valAddress da), by simp only [mkW, readMvW, readMv, readValueW, readValue, ea]⟩

theorem readsAt_address {p : Place} {k : Token} {s tag : Str} {w : List Token} (hp : p.compound = true)
    (hk : WordTok s k) (ht : TagSays w tag) : ReadsAt p (k :: .with_ :: (w ++ [.end_])) [] (addressType s tag []) := by
  refine readsAt_addr hp ?_
  obtain ⟨n, dn, en⟩ := derives_word hk
  cases ht with
  | none => exact ⟨_, .addrEmpty rfl dn, by simp only [mkW, readAddrW, readAddr, en, readFields]⟩
  | contract =>
    exact ⟨_, .addrContract (w1 := lift [k]) (w2 := []) rfl dn .optNone, by
      simp only [mkW, readAddrW, readAddr, en, readFields, Option.getD_none]⟩
  | library => exact ⟨_, .addrLibrary rfl dn, by simp only [mkW, readAddrW, readAddr, en, readFields]⟩
  | special =>
    exact ⟨_, .addrSpecial (w1 := lift [k]) (w2 := lift [_]) rfl dn (.specialId rfl), by
      simp only [mkW, readAddrW, readAddr, en, readFields]⟩

theorem readsAt_field {x : Str} {w : List Token} {l : List Str} {t : Ty} (h : ReadsAt .alone w l (some t)) :
    ∃ v, Derives .addressField (lift (.field :: .identifier x :: .colon :: w)) v ∧
      ∀ fs ls gs, readFields fs = .ok (ls, gs) → readFields (v :: fs) = .ok (ls ++ l, ⟨x, t⟩ :: gs) := by
  obtain ⟨v, hv, e⟩ := h
  refine ⟨_, .addrField (w1 := lift [.identifier x]) (by simp; repeat' constructor)
    (.varName (.regularId rfl)) (.typeRem hv), fun fs ls gs hl => ?_⟩
  simp only [mkW, readFields, e, hl]

theorem readsAt_parens {p q : Place} {w : List Token} {l : List Str} {t : Option Ty} (hp : p.parens = some q)
    (ih : ReadsAt q w l t) : ReadsAt p (.openParen :: (w ++ [.closeParen])) l t := by
  have hw : lift (.openParen :: (w ++ [.closeParen])) = ⟨default, .openParen, default⟩ :: (lift w ++ [⟨default, .closeParen, default⟩]) := by
    simp
  cases p <;> simp only [Place.parens, reduceCtorEq, Option.some.injEq] at hp <;> subst hp <;> obtain ⟨v, d, e⟩ := ih
  · exact ⟨_, .remParen hw (.typeRem d), by simp only [mkW, readTypeW, readType, e]⟩
  · exact ⟨_, .argParen hw (.typeRem d), by simp only [mkW, readArgW, readArg, e]⟩
  · exact ⟨_, .valParen hw d, by simp only [mkW, readValueW, readValue, e]⟩
  · exact ⟨_, .mvNoArgs (.valParen hw d), by simp only [mkW, readMvW, readMv, readValueW, readValue, e]⟩
  · exact ⟨_, .mvaParen hw d, by simp only [mkW, readMvaW, readMva, e]⟩

/-- what is said is read -/
theorem Says.reads {p : Place} {w : List Token} {l : List Str} {o : Option Ty} (h : Says p w l o) : ReadsAt p w l o := by
  induction h using Says.rec (motive_2 := fun p w l os _ => ReadsAllAt p w l os)
    (motive_3 := fun w l fs _ => ∃ vs, Derives (.star .nextAddressField) (lift w) vs ∧ readFields vs = .ok (l, fs)) with
  | name hp h => exact readsAt_name hp h
  | apply hp h _ ih => exact readsAt_apply hp h ih
  | map hp _ _ ih ih' => exact readsAt_map hp ih ih'
  | address hp hk ht => exact readsAt_address hp hk ht
  | addressFields hp hk _ _ ih ih' =>
    refine readsAt_addr hp ?_
    rename_i k s x w ws l ls t fs _ _
    obtain ⟨n, dn, en⟩ := derives_word hk
    obtain ⟨v, dv, ev⟩ := readsAt_field (x := x) ih
    obtain ⟨vs, dvs, evs⟩ := ih'
    refine ⟨_, .addrContract (w1 := lift [k]) (w2 := lift (.field :: .identifier x :: .colon :: w) ++ lift ws) (s1 := default)
      (e1 := default) (s2 := default) (e2 := default) (s3 := default) (e3 := default) (by simp) dn
      (.optSome (.addrFieldList rfl dv dvs)), ?_⟩
    simp only [mkW, readAddrW, readAddr, en, Option.getD_some, ev _ _ _ evs]
  | parens hp _ ih => exact readsAt_parens hp ih
  | parensKey h =>
    obtain ⟨m, d, e⟩ := derives_nameSays h
    exact ⟨_, .keyParenMeta (by rw [lift_cons, lift_append]; rfl) d, by simp only [mkW, readKeyW, readKey, readName_says e]⟩
  | @noArgs p =>
    cases p
    case argument => exact ⟨[], .starNil, by intro s left acc; simp [readArgs, applyName.go]⟩
    case valueArgument => exact ⟨[], .starNil, by intro s left acc; simp [readMvas, applyName.go]⟩
    all_goals trivial
  | @arg p w ws l ls o os _ _ ih ih' =>
    cases p
    case argument =>
      obtain ⟨v, d, e⟩ := ih
      obtain ⟨vs, ds, es⟩ := ih'
      refine ⟨v :: vs, by rw [lift_append]; exact .starCons d ds, fun s left acc => ?_⟩
      simp only [readArgs, e, applyName.go, es, List.append_assoc, List.cons_append, List.nil_append]
    case valueArgument =>
      obtain ⟨v, d, e⟩ := ih
      obtain ⟨vs, ds, es⟩ := ih'
      refine ⟨v :: vs, by rw [lift_append]; exact .starCons d ds, fun s left acc => ?_⟩
      simp only [readMvas, e, applyName.go, es, List.append_assoc, List.cons_append, List.nil_append]
    all_goals trivial
  | noFields => exact ⟨[], .starNil, rfl⟩
  | @field x w ws l ls t fs _ _ ih ih' =>
    obtain ⟨v, dv, ev⟩ := readsAt_field (x := x) ih
    obtain ⟨vs, dvs, evs⟩ := ih'
    refine ⟨_, ?_, ev _ _ _ evs⟩
    have : lift (.comma :: .field :: .identifier x :: .colon :: (w ++ ws)) =
        lift (.comma :: .field :: .identifier x :: .colon :: w) ++ lift ws := by simp
    rw [this]
    exact .starCons (.nextAddrField (by rw [lift_cons]) dv) dvs

/-! ### What is read is said -/

/-- the texts of tokens with positions -/
def wordsOf (w : List STok) : List Token := w.map (·.tok)

@[simp] theorem wordsOf_nil : wordsOf [] = [] := rfl
@[simp] theorem wordsOf_cons (t : STok) (w : List STok) : wordsOf (t :: w) = t.tok :: wordsOf w := rfl
@[simp] theorem wordsOf_append (a b : List STok) : wordsOf (a ++ b) = wordsOf a ++ wordsOf b := by simp [wordsOf]

theorem Says.toParens {w : List Token} {l : List Str} {o : Option Ty} (h : Says .value w l o) : Says .valueInParens w l o := by
  cases h with
  | name _ h => simpa using Says.apply (p := .valueInParens) rfl h .noArgs
  | apply h => cases h
  | map _ h h' => exact .map rfl h h'
  | address _ h h' => exact .address rfl h h'
  | addressFields _ h h' h'' => exact .addressFields rfl h h' h''
  | parens h h' => cases h; exact .parens rfl h'

/-- the arguments of an application: all have a reading -/
theorem go_clean (s : Str) : ∀ (rs : List Reading) (left l : List Str) (acc : List (Option Ty)) (o : Option Ty),
    applyName.go s rs left acc = .clean l o → ∃ ls os, l = ls ++ left ∧ o = namedType s (acc ++ os) ∧
      ∀ left' acc', applyName.go s rs left' acc' = .clean (ls ++ left') (namedType s (acc' ++ os))
  | [], left, l, acc, o, h => by
    simp only [applyName.go, Reading.clean.injEq] at h
    exact ⟨[], [], by simp [h.1], by simp [h.2], by simp [applyName.go]⟩
  | .bad w :: rs, left, l, acc, o, h => by simp [applyName.go] at h
  | .clean k t :: rs, left, l, acc, o, h => by
    rw [applyName.go] at h
    obtain ⟨ls, os, h1, h2, h3⟩ := go_clean s rs _ _ _ _ h
    exact ⟨ls ++ k, t :: os, by simp [h1], by simp [h2], fun left' acc' => by simp [applyName.go, h3]⟩

theorem readMap_inv {a b : Reading} {l : List Str} {o : Option Ty} (h : readMap a b = .clean l o) :
    ∃ k t, a = .clean l k ∧ b = .clean [] t ∧ o = mapOf k t := by
  cases a with
  | bad => simp [readMap] at h
  | clean la k =>
    cases b with
    | bad => simp [readMap] at h
    | clean lb t =>
      cases lb with
      | cons => simp [readMap] at h
      | nil =>
        rw [readMap_clean, Reading.clean.injEq] at h
        exact ⟨k, t, by rw [h.1], rfl, h.2.symm⟩

theorem asKey_inv {a : Reading} {l : List Str} {o : Option Ty} (h : asKey a = .clean l o) : False := by
  cases a <;> simp [asKey] at h

/-- arguments that are all read -/
def AllRead (p : Place) (w : List Token) (rs : List Reading) : Prop :=
  ∀ s left acc l o, applyName.go s rs left acc = .clean l o → ∃ ls os, SaysAll p w ls os ∧
    l = ls ++ left ∧ o = namedType s (acc ++ os)

/-- an address type on any place that takes one -/
def AddrSays (w : List Token) (l : List Str) (o : Option Ty) : Prop := ∀ p : Place, p.compound = true → Says p w l o

/-- the claim of `Derives.says` -/
def SaysClaim : (n : NT) → List STok → Val n → Prop
  | .typeName, w, v => ∀ s, plainName v.node = some s → ∃ t, wordsOf w = [t] ∧ WordTok s t
  | .byteString, w, v => ∃ s t, wordsOf w = [t] ∧ v.display = s ∧ t = .byStrWithSize s
  | .customId, w, v => wordsOf w = [.customIdentifier v.node]
  | .regularId, w, v => wordsOf w = [.identifier v.node]
  | .specialId, w, v => wordsOf w = [.specialIdentifier v.node]
  | .hexNumber, w, v => wordsOf w = [.hexNumber v.node]
  | .metaId, w, v => ∀ l s, metaText v.node = some (l, s) → NameSays (wordsOf w) l s
  | .varId, w, v => ∀ x a b, v.node = .variableName ⟨x, a, b⟩ → wordsOf w = [.identifier x]
  | .remaining, w, v => ∀ l o, readTypeW v = .clean l o → Says .alone (wordsOf w) l o
  | .funSig, _, v => ∀ l o, readTypeW v ≠ .clean l o
  | .scillaType, w, v => ∀ l o, readTypeW v = .clean l o → Says .alone (wordsOf w) l o
  | .typeArg, w, v => ∀ l o, readArgW v = .clean l o → Says .argument (wordsOf w) l o
  | .mapKey, w, v => ∀ l o, readKeyW v = .clean l o → Says .key (wordsOf w) l o
  | .mapValue, w, v => ∀ l o, readValueW v = .clean l o → Says .value (wordsOf w) l o
  | .mapValueAllowing, w, v => ∀ l o, readMvW v = .clean l o → Says .valueInParens (wordsOf w) l o
  | .mapValueArgs, w, v => ∀ l o, readMvaW v = .clean l o → Says .valueArgument (wordsOf w) l o
  | .addressType, w, v => ∀ l o, readAddrW v = .clean l o → AddrSays (wordsOf w) l o
  | .addressField, w, v => ∀ vs ls fs, readFields (v :: vs) = .ok (ls, fs) → ∃ x u l t ls' fs',
      wordsOf w = .field :: .identifier x :: .colon :: u ∧ Says .alone u l (some t) ∧ readFields vs = .ok (ls', fs') ∧
        ls = ls' ++ l ∧ fs = ⟨x, t⟩ :: fs'
  | .nextAddressField, w, v => ∀ vs ls fs, readFields (v :: vs) = .ok (ls, fs) → ∃ x u l t ls' fs',
      wordsOf w = .comma :: .field :: .identifier x :: .colon :: u ∧ Says .alone u l (some t) ∧
        readFields vs = .ok (ls', fs') ∧ ls = ls' ++ l ∧ fs = ⟨x, t⟩ :: fs'
  | .star .nextAddressField, w, vs => ∀ ls fs, readFields vs = .ok (ls, fs) → SaysFields (wordsOf w) ls fs
  | .addressFieldList, w, vs => ∀ ls fs, readFields vs = .ok (ls, fs) → ∃ x u us l t ls' fs',
      wordsOf w = .field :: .identifier x :: .colon :: (u ++ us) ∧ Says .alone u l (some t) ∧ SaysFields us ls' fs' ∧
        ls = ls' ++ l ∧ fs = ⟨x, t⟩ :: fs'
  | .opt .addressFieldList, w, o => (wordsOf w = [] ∧ o = none) ∨ ∃ vs, o = some vs ∧ ∀ ls fs, readFields vs = .ok (ls, fs) →
      ∃ x u us l t ls' fs',
      wordsOf w = .field :: .identifier x :: .colon :: (u ++ us) ∧ Says .alone u l (some t) ∧ SaysFields us ls' fs' ∧
        ls = ls' ++ l ∧ fs = ⟨x, t⟩ :: fs'
  | .star .typeArg, w, vs => AllRead .argument (wordsOf w) (readArgs vs)
  | .star .mapValueArgs, w, vs => AllRead .valueArgument (wordsOf w) (readMvas vs)
  | .plus .mapValueArgs, w, vs => AllRead .valueArgument (wordsOf w) (readMvas vs)
  | _, _, _ => True

theorem AllRead.nil (p : Place) : AllRead p [] [] := by
  intro s left acc l o h
  simp only [applyName.go, Reading.clean.injEq] at h
  exact ⟨[], [], .noArgs, by simp [h.1], by simp [h.2]⟩

theorem AllRead.cons {p : Place} {w ws : List Token} {r : Reading} {rs : List Reading}
    (h : ∀ l o, r = .clean l o → Says p w l o) (h' : AllRead p ws rs) : AllRead p (w ++ ws) (r :: rs) := by
  intro s left acc l o hg
  cases r with
  | bad => simp [applyName.go] at hg
  | clean k t =>
    rw [applyName.go] at hg
    obtain ⟨ls, os, h1, h2, h3⟩ := h' _ _ _ _ _ hg
    exact ⟨ls ++ k, t :: os, .arg (h _ _ rfl) h1, by simp [h2], by simp [h3]⟩

theorem apply_says {p q : Place} {w ws : List Token} {m : NodeMetaIdentifier} {rs : List Reading} (hp : p.args = some q)
    (hm : ∀ l s, metaText m = some (l, s) → NameSays w l s) (ha : AllRead q ws rs) (l : List Str) (o : Option Ty)
    (h : applyName m rs = .clean l o) : Says p (w ++ ws) l o := by
  unfold applyName at h
  cases e : metaText m with
  | none => simp [e] at h
  | some x =>
    obtain ⟨k, s⟩ := x
    simp only [e] at h
    obtain ⟨ls, os, h1, rfl, rfl⟩ := ha _ _ _ _ _ h
    exact .apply hp (hm _ _ e) h1

theorem name_says {p : Place} {w : List Token} {m : NodeMetaIdentifier} (hp : p.name = true)
    (hm : ∀ l s, metaText m = some (l, s) → NameSays w l s) (l : List Str) (o : Option Ty)
    (h : readName m = .clean l o) : Says p w l o := by
  unfold readName at h
  cases e : metaText m with
  | none => simp [e] at h
  | some x =>
    obtain ⟨k, s⟩ := x
    simp only [e, Reading.clean.injEq] at h
    obtain ⟨rfl, rfl⟩ := h
    exact .name hp (hm _ _ e)

theorem map_says {p : Place} {w ws : List Token} {a b : Reading} (hp : p.compound = true)
    (ha : ∀ l o, a = .clean l o → Says .key w l o) (hb : ∀ l o, b = .clean l o → Says .value ws l o)
    (l : List Str) (o : Option Ty) (h : readMap a b = .clean l o) : Says p (.map :: (w ++ ws)) l o := by
  obtain ⟨k, t, rfl, rfl, rfl⟩ := readMap_inv h
  exact .map hp (ha _ _ rfl) (hb _ _ rfl)

end Verif
