import Verif.Spec.Print
import Verif.Props.Types
/-
The canonical spelling of a writable type is derivable, and denotes the type.
-/
namespace Verif

@[simp] theorem lift_nil : lift [] = [] := rfl
@[simp] theorem lift_cons (t : Token) (w : List Token) : lift (t :: w) = ⟨default, t, default⟩ :: lift w :=
  rfl
@[simp] theorem lift_append (a b : List Token) : lift (a ++ b) = lift a ++ lift b := by simp [lift]
theorem bare_lift (w : List Token) : bare (lift w) = w := by
  induction w with
  | nil => rfl
  | cons t w ih =>
    simp only [lift_cons, bare, List.map_cons] at ih ⊢
    rw [ih]

theorem plus_of_digits {n : Nat} : '+' ∉ str! "ByStr" ++ natDigits n := by
  intro h
  rcases List.mem_append.1 h with h | h
  · simp at h
  · exact absurd ((natDigits_value n).2.1 _ h) (by decide)

theorem namedType_base {n : Str} {t : Ty} (h : builtinTypes.lookup n = some t) (as : List (Option Ty)) :
    namedType n as = some t := by
  simp [namedType, h]

theorem lookup_none_of_not_mem {n : Str} (h : n ∉ builtinTypes.map (·.1)) :
    builtinTypes.lookup n = none := by
  rw [List.lookup_eq_none_iff]
  intro p hp
  simp only [bne_iff_ne, ne_eq]
  intro e
  exact h (List.mem_map.2 ⟨p, hp, e.symm⟩)

theorem namedType_other {n : Str} (h : n ∉ takenNames) (hb : ¬ str! "ByStr" <+: n) :
    namedType n [] = some (.other n) := by
  simp only [takenNames, List.mem_append, List.mem_cons, List.not_mem_nil, or_false, not_or] at h
  simp only [namedType, lookup_none_of_not_mem h.1, h.2.1, h.2.2.1, h.2.2.2.1, h.2.2.2.2, if_false]
  unfold userType
  split
  · exact absurd ⟨_, rfl⟩ hb
  · rfl

theorem namedType_byStrX {n : Nat} (h : n < 2 ^ 64) (h20 : n ≠ 20) :
    namedType (str! "ByStr" ++ natDigits n) [] = some (.byStrX n) := by
  obtain ⟨hne, hd, hv⟩ := natDigits_value n
  have hm : str! "ByStr" ++ natDigits n ∉ builtinTypes.map (·.1) := by
    intro hm
    simp only [builtinTypes, List.map_cons, List.map_nil, List.mem_cons, List.not_mem_nil,
      or_false, List.cons_append, List.nil_append, List.cons.injEq, Char.reduceEq, false_and, and_false,
      true_and, false_or] at hm
    rcases hm with hm | hm
    · exact hne hm
    · rw [hm] at hv
      exact h20 (by rw [← hv]; rfl)
  have : userType (str! "ByStr" ++ natDigits n) = .byStrX n := by
    have hall : (natDigits n).all isDec = true := List.all_eq_true.2 hd
    simp only [List.cons_append, List.nil_append, userType]
    rw [if_pos ⟨hne, hall, by rw [hv]; exact h⟩, hv]
  simp only [namedType, lookup_none_of_not_mem hm]
  rw [if_neg (by simp), if_neg (by simp), if_neg (by simp), if_neg (by simp), this]

theorem derives_custom (s : Str) : ∃ m, Derives .metaId (lift [.customIdentifier s]) m ∧
    (¬ '+' ∈ s → metaText m.node = some ([], s)) :=
  ⟨_, .metaName (.typeNameCustom (.customId rfl)), fun h => by simp [metaText, plainName, mkW, h]⟩

theorem derives_bytes (s : Str) : ∃ m, Derives .metaId (lift [.byStrWithSize s]) m ∧
    (¬ '+' ∈ s → metaText m.node = some ([], s)) :=
  ⟨_, .metaName (.typeNameBytes (.byteString rfl)), fun h => by
    simp [metaText, plainName, mkW, NodeByteStr.display, h]⟩

theorem namedType_byStrX20 : namedType (str! "ByStr020") [] = some (.byStrX 20) := by rfl

theorem digit_isDec {c : Char} (h : Digit c) : isDec c = true := by
  simp only [isDec, Bool.and_eq_true, decide_eq_true_eq]
  exact ⟨h.1, h.2⟩

/-- a byte string of a length that does not fit 64 bits is a user-defined type -/
theorem namedType_huge {ds : Str} (hd : ∀ c ∈ ds, Digit c) (hl : 2 ^ 64 ≤ digitsValue ds) :
    '+' ∉ str! "ByStr" ++ ds ∧ namedType (str! "ByStr" ++ ds) [] = some (.other (str! "ByStr" ++ ds)) := by
  constructor
  · intro h
    rcases List.mem_append.1 h with h | h
    · simp at h
    · exact absurd (digit_isDec (hd _ h)) (by decide)
  have hm : str! "ByStr" ++ ds ∉ builtinTypes.map (·.1) := by
    intro hm
    simp only [builtinTypes, List.map_cons, List.map_nil, List.mem_cons, List.not_mem_nil,
      or_false, List.cons_append, List.nil_append, List.cons.injEq, Char.reduceEq, false_and, and_false,
      true_and, false_or] at hm
    rcases hm with rfl | rfl
    · exact absurd hl (by decide)
    · exact absurd hl (by decide)
  have : userType (str! "ByStr" ++ ds) = .other (str! "ByStr" ++ ds) := by
    simp only [List.cons_append, List.nil_append, userType]
    rw [if_neg]
    rintro ⟨-, -, h⟩
    omega
  simp only [namedType, lookup_none_of_not_mem hm]
  rw [if_neg (by simp), if_neg (by simp), if_neg (by simp), if_neg (by simp), this]

/-- types written as a single name -/
theorem derives_name {t : Ty} {k : Token} (h : t.nameTok = some k) (hw : t.Writable) :
    ∃ m, Derives .metaId (lift [k]) m ∧ ∃ n, metaText m.node = some ([], n) ∧ namedType n [] = some t := by
  cases t <;> simp only [Ty.nameTok, Option.some.injEq, reduceCtorEq] at h
  case byStr =>
    subst h
    exact ⟨_, .metaByStr rfl, _, rfl, by rfl⟩
  case byStr20 =>
    subst h
    obtain ⟨m, hm, e⟩ := derives_bytes (str! "ByStr20")
    exact ⟨m, hm, _, e (by decide), by rfl⟩
  case byStrX n =>
    subst h
    simp only [Ty.Writable] at hw
    by_cases h20 : n = 20
    · subst h20
      obtain ⟨m, hm, e⟩ := derives_bytes (str! "ByStr020")
      exact ⟨m, hm, _, e (by decide), namedType_byStrX20⟩
    · rw [if_neg h20]
      obtain ⟨m, hm, e⟩ := derives_bytes (str! "ByStr" ++ natDigits n)
      exact ⟨m, hm, _, e plus_of_digits, namedType_byStrX hw h20⟩
  case other s =>
    subst h
    simp only [Ty.Writable, Printable, WellFormed] at hw
    rcases hw with hw | ⟨⟨ds, rfl, -, hd⟩, hl⟩
    case inr =>
      rw [if_pos ⟨ds, rfl⟩]
      obtain ⟨h1, h2⟩ := namedType_huge hd hl
      obtain ⟨m, hm, e⟩ := derives_bytes (str! "ByStr" ++ ds)
      exact ⟨m, hm, _, e h1, h2⟩
    rw [if_neg hw.1.2.2]
    obtain ⟨m, hm, e⟩ := derives_custom s
    refine ⟨m, hm, _, e ?_, namedType_other hw.2 hw.1.2.2⟩
    obtain ⟨⟨⟨c, w, rfl, h1, h2, h3⟩, -, -⟩, -⟩ := hw
    intro hp
    rcases List.mem_cons.1 hp with rfl | hp
    · exact absurd h1 (by decide)
    · exact absurd (h3 _ hp) (by unfold NameChar; decide)
  all_goals
    subst h
    obtain ⟨m, hm, e⟩ := derives_custom _
    exact ⟨m, hm, _, e (by decide), by rfl⟩

theorem toks_of_name {t : Ty} {k : Token} (h : t.nameTok = some k) : t.toks = [k] := by
  cases t <;> simp only [Ty.nameTok, Option.some.injEq, reduceCtorEq] at h <;>
    simp only [Ty.toks, Ty.nameTok, Option.toList, h]

def ReadsRem (t : Ty) (w : List Token) : Prop :=
  ∃ v, Derives .remaining (lift w) v ∧ readTypeW v = .clean [] (some t)
def ReadsMv (t : Ty) (w : List Token) : Prop :=
  ∃ v, Derives .mapValueAllowing (lift w) v ∧ readMvW v = .clean [] (some t)
def ReadsArg (t : Ty) (w : List Token) : Prop :=
  ∃ v, Derives .typeArg (lift w) v ∧ readArgW v = .clean [] (some t)
def ReadsValue (t : Ty) (w : List Token) : Prop :=
  ∃ v, Derives .mapValue (lift w) v ∧ readValueW v = .clean [] (some t)
def ReadsMva (t : Ty) (w : List Token) : Prop :=
  ∃ v, Derives .mapValueArgs (lift w) v ∧ readMvaW v = .clean [] (some t)
def ReadsKey (t : Ty) (w : List Token) : Prop :=
  ∃ v, Derives .mapKey (lift w) v ∧ readKeyW v = .clean [] (some t)

theorem readName_eq {m : NodeMetaIdentifier} {n : Str} {t : Ty} (h : metaText m = some ([], n))
    (h' : namedType n [] = some t) : readName m = .clean [] (some t) := by
  simp [readName, h, h']

theorem reads_arg {t : Ty} (hw : t.Writable) (h : ReadsRem t t.toks) : ReadsArg t (asArg t t.toks) := by
  unfold asArg
  split
  · rename_i k hk
    obtain ⟨m, hm, n, h1, h2⟩ := derives_name hk hw
    rw [toks_of_name hk]
    exact ⟨_, .argMeta hm, by simp only [readArgW, mkW, readArg, readName_eq h1 h2]⟩
  · obtain ⟨v, hv, e⟩ := h
    exact ⟨_, .argParen (by simp [inParens]; repeat' constructor) (.typeRem hv), by
      simp only [readArgW, mkW, readArg, e]⟩

theorem reads_value {t : Ty} (hw : t.Writable) (h : ReadsMv t t.toks) : ReadsValue t (asArg t t.toks) := by
  unfold asArg
  split
  · rename_i k hk
    obtain ⟨m, hm, n, h1, h2⟩ := derives_name hk hw
    rw [toks_of_name hk]
    exact ⟨_, .valMeta hm, by simp only [readValueW, mkW, readValue, readName_eq h1 h2]⟩
  · obtain ⟨v, hv, e⟩ := h
    exact ⟨_, .valParen (by simp [inParens]; repeat' constructor) hv, by simp only [readValueW, mkW, readValue, e]⟩

theorem reads_mva {t : Ty} (hw : t.Writable) (h : ReadsMv t t.toks) : ReadsMva t (asArg t t.toks) := by
  unfold asArg
  split
  · rename_i k hk
    obtain ⟨m, hm, n, h1, h2⟩ := derives_name hk hw
    rw [toks_of_name hk]
    exact ⟨_, .mvaMeta hm, by simp only [readMvaW, mkW, readMva, readName_eq h1 h2]⟩
  · obtain ⟨v, hv, e⟩ := h
    exact ⟨_, .mvaParen (by simp [inParens]; repeat' constructor) hv, by simp only [readMvaW, mkW, readMva, e]⟩

theorem reads_key {t : Ty} (hk : t.nameTok.isSome = true) (hw : t.Writable) :
    ReadsKey t (asArg t t.toks) := by
  obtain ⟨k, hk⟩ := Option.isSome_iff_exists.1 hk
  obtain ⟨m, hm, n, h1, h2⟩ := derives_name hk hw
  unfold asArg
  rw [hk, toks_of_name hk]
  exact ⟨_, .keyMeta hm, by simp only [readKeyW, mkW, readKey, readName_eq h1 h2]⟩

theorem reads_name {t : Ty} {k : Token} (hk : t.nameTok = some k) (hw : t.Writable) :
    ReadsRem t t.toks ∧ ReadsMv t t.toks := by
  obtain ⟨m, hm, n, h1, h2⟩ := derives_name hk hw
  rw [toks_of_name hk]
  constructor
  · refine ⟨_, .remGeneric (List.append_nil _).symm hm .starNil, ?_⟩
    simp only [readTypeW, mkW, readType, readArgs, applyName, applyName.go, h1, h2]
  · exact ⟨_, .mvNoArgs (.valMeta hm), by
      simp only [readMvW, mkW, readMv, readValueW, readValue, readName_eq h1 h2]⟩

/-- `F a` -/
theorem reads_app1 {f : Str} {t r : Ty} {w : List Token} (hp : '+' ∉ f)
    (hr : namedType f [some t] = some r) (ha : ReadsArg t w) (hm : ReadsMva t w) :
    ReadsRem r (.customIdentifier f :: w) ∧ ReadsMv r (.customIdentifier f :: w) := by
  obtain ⟨m, hm', e⟩ := derives_custom f
  have e := e hp
  constructor
  · obtain ⟨v, hv, ev⟩ := ha
    refine ⟨_, .remGeneric (w1 := lift [.customIdentifier f]) (w2 := lift w ++ []) (by simp) hm'
      (.starCons hv .starNil), ?_⟩
    simp only [readTypeW, mkW, readType, readArgs, applyName, applyName.go, ev, e, List.nil_append, hr]
  · obtain ⟨v, hv, ev⟩ := hm
    refine ⟨_, .mvWithArgs (w1 := lift [.customIdentifier f]) (w2 := lift w ++ []) (by simp) hm'
      (.plusIntro hv .starNil), ?_⟩
    simp only [readMvW, mkW, readMv, readMvas, applyName, applyName.go, ev, e, List.nil_append, hr]

/-- `F a b` -/
theorem reads_app2 {f : Str} {t u r : Ty} {w x : List Token} (hp : '+' ∉ f)
    (hr : namedType f [some t, some u] = some r) (ha : ReadsArg t w) (hm : ReadsMva t w)
    (ha' : ReadsArg u x) (hm' : ReadsMva u x) :
    ReadsRem r (.customIdentifier f :: (w ++ x)) ∧ ReadsMv r (.customIdentifier f :: (w ++ x)) := by
  obtain ⟨m, hmm, e⟩ := derives_custom f
  have e := e hp
  constructor
  · obtain ⟨v, hv, ev⟩ := ha
    obtain ⟨v', hv', ev'⟩ := ha'
    refine ⟨_, .remGeneric (w1 := lift [.customIdentifier f]) (w2 := lift w ++ (lift x ++ []))
      (by simp) hmm (.starCons hv (.starCons hv' .starNil)), ?_⟩
    simp only [readTypeW, mkW, readType, readArgs, applyName, applyName.go, ev, ev', e,
      List.nil_append, List.cons_append, hr]
  · obtain ⟨v, hv, ev⟩ := hm
    obtain ⟨v', hv', ev'⟩ := hm'
    refine ⟨_, .mvWithArgs (w1 := lift [.customIdentifier f]) (w2 := lift w ++ (lift x ++ []))
      (by simp) hmm (.plusIntro hv (.starCons hv' .starNil)), ?_⟩
    simp only [readMvW, mkW, readMv, readMvas, applyName, applyName.go, ev, ev', e,
      List.nil_append, List.cons_append, hr]

theorem reads_map {k v : Ty} {w x : List Token} (hk : ReadsKey k w) (hv : ReadsValue v x) :
    ReadsRem (.map k v) (.map :: (w ++ x)) ∧ ReadsMv (.map k v) (.map :: (w ++ x)) := by
  obtain ⟨a, ha, ea⟩ := hk
  obtain ⟨b, hb, eb⟩ := hv
  constructor
  · exact ⟨_, .remMap (by simp; repeat' constructor) ha hb, by simp only [readTypeW, mkW, readType, ea, eb, readMap]⟩
  · exact ⟨_, .mvNoArgs (.valMap (by simp; repeat' constructor) ha hb), by
      simp only [readMvW, mkW, readMv, readValueW, readValue, readEntryW, readEntry, ea, eb, readMap]⟩

/-- a list of address fields -/
def ReadsFields (fs : List Field) (w : List Token) : Prop :=
  ∃ v, Derives (.opt .addressFieldList) (lift w) v ∧ readFields (v.getD []) = .ok ([], fs)

theorem derives_address {tag : Str} {fs : List Field}
    (h : tag = str! "contract" ∨
      (fs = [] ∧ (tag = [] ∨ tag = str! "library" ∨ Printable (.specialIdentifier tag))))
    (hf : ReadsFields fs (fieldsToks fs)) :
    ∃ v, Derives .addressType (lift (Ty.toks (.byStr20With tag fs))) v ∧
      readAddrW v = .clean [] (some (.byStr20With tag fs)) := by
    have hn : Derives .typeName (lift [.byStrWithSize (str! "ByStr20")]) _ :=
      .typeNameBytes (.byteString rfl)
    have hp : plainName (.byteStringType (.type (mkW (lift [.byStrWithSize (str! "ByStr20")])
      (str! "ByStr20")))) = some (str! "ByStr20") := by
      simp only [plainName, NodeByteStr.display, mkW]; decide
    rcases h with rfl | ⟨rfl, rfl | rfl | h⟩
    · obtain ⟨v, hv, e⟩ := hf
      refine ⟨_, .addrContract (w1 := lift [.byStrWithSize (str! "ByStr20")]) (by
        simp [Ty.toks, tagToks]; repeat' constructor) hn hv, ?_⟩
      simp only [readAddrW, mkW, readAddr, e, hp, addressType] at hp ⊢
      simp
    · refine ⟨_, .addrEmpty (w1 := lift [.byStrWithSize (str! "ByStr20")]) (by
        simp [Ty.toks, tagToks, fieldsToks]; repeat' constructor) hn, ?_⟩
      simp only [readAddrW, mkW, readAddr, hp, addressType, readFields] at hp ⊢
      simp
    · refine ⟨_, .addrLibrary (w1 := lift [.byStrWithSize (str! "ByStr20")]) (by
        simp [Ty.toks, tagToks, fieldsToks]; repeat' constructor) hn, ?_⟩
      simp only [readAddrW, mkW, readAddr, hp, addressType, readFields] at hp ⊢
      simp
    · obtain ⟨⟨q, rfl, -⟩, h2⟩ := h
      refine ⟨_, .addrSpecial (w1 := lift [.byStrWithSize (str! "ByStr20")])
        (w2 := lift [.specialIdentifier ('_' :: q)]) (by
        simp [Ty.toks, tagToks, fieldsToks]; repeat' constructor) hn (.specialId rfl), ?_⟩
      simp only [readAddrW, mkW, readAddr, hp, addressType, readFields] at hp ⊢
      simp

theorem reads_address {tag : Str} {fs : List Field}
    (h : tag = str! "contract" ∨
      (fs = [] ∧ (tag = [] ∨ tag = str! "library" ∨ Printable (.specialIdentifier tag))))
    (hf : ReadsFields fs (fieldsToks fs)) :
    ReadsRem (.byStr20With tag fs) (Ty.toks (.byStr20With tag fs)) ∧
      ReadsMv (.byStr20With tag fs) (Ty.toks (.byStr20With tag fs)) := by
  obtain ⟨v, hv, e⟩ := derives_address h hf
  constructor
  · exact ⟨_, .remAddress hv, by simp only [readTypeW, mkW, readType, e]⟩
  · exact ⟨_, .mvNoArgs (.valAddress hv), by
      simp only [readMvW, mkW, readMv, readValueW, readValue, e]⟩

theorem derives_addrField {x : Str} {t : Ty} (h : ReadsRem t t.toks) :
    ∃ v, Derives .addressField (lift (.field :: .identifier x :: .colon :: t.toks)) v ∧
      ∀ fs l, readFields fs = .ok ([], l) → readFields (v :: fs) = .ok ([], ⟨x, t⟩ :: l) := by
  obtain ⟨v, hv, e⟩ := h
  refine ⟨_, .addrField (w1 := lift [.identifier x]) (by simp; repeat' constructor)
    (.varName (.regularId rfl)) (.typeRem hv), fun fs l hl => ?_⟩
  simp only [mkW, readFields, e, hl, List.nil_append]

/-- `, field x : T, …` -/
def moreToks : List Field → List Token
  | [] => []
  | f :: fs => .comma :: fieldsToks (f :: fs)

mutual
theorem reads_type : ∀ t : Ty, t.Writable → ReadsRem t t.toks ∧ ReadsMv t t.toks
  | .map k v, h => by
    simp only [Ty.Writable] at h
    exact reads_map (reads_key h.1 h.2.1) (reads_value h.2.2 (reads_type v h.2.2).2)
  | .option t, h => by
    simp only [Ty.Writable] at h
    exact reads_app1 (by decide) (by rfl) (reads_arg h (reads_type t h).1)
      (reads_mva h (reads_type t h).2)
  | .list t, h => by
    simp only [Ty.Writable] at h
    exact reads_app1 (by decide) (by rfl) (reads_arg h (reads_type t h).1)
      (reads_mva h (reads_type t h).2)
  | .pair a b, h => by
    simp only [Ty.Writable] at h
    exact reads_app2 (by decide) (by rfl) (reads_arg h.1 (reads_type a h.1).1)
      (reads_mva h.1 (reads_type a h.1).2) (reads_arg h.2 (reads_type b h.2).1)
      (reads_mva h.2 (reads_type b h.2).2)
  | .byStr20With tag fs, h => by
    simp only [Ty.Writable] at h
    refine reads_address h.1 ?_
    match fs, h.2 with
    | [], _ => exact ⟨_, .optNone, rfl⟩
    | ⟨x, t⟩ :: fs, h2 =>
      simp only [fieldsWritable] at h2
      obtain ⟨v, hv, e⟩ := derives_addrField (x := x) (reads_type t h2.2.1).1
      obtain ⟨vs, hvs, es⟩ := reads_more fs h2.2.2
      refine ⟨_, .optSome (.addrFieldList (w2 := lift (moreToks fs)) ?_ hv hvs), e _ _ es⟩
      cases fs <;> simp [fieldsToks, moreToks]
  | .int32, h => reads_name rfl h
  | .int64, h => reads_name rfl h
  | .int128, h => reads_name rfl h
  | .int256, h => reads_name rfl h
  | .uint32, h => reads_name rfl h
  | .uint64, h => reads_name rfl h
  | .uint128, h => reads_name rfl h
  | .uint256, h => reads_name rfl h
  | .string, h => reads_name rfl h
  | .bNum, h => reads_name rfl h
  | .bool, h => reads_name rfl h
  | .byStr, h => reads_name rfl h
  | .byStr20, h => reads_name rfl h
  | .byStrX _, h => reads_name rfl h
  | .other _, h => reads_name rfl h
theorem reads_more : ∀ fs : List Field, fieldsWritable fs →
    ∃ vs, Derives (.star .nextAddressField)
      (lift (moreToks fs)) vs ∧
      readFields vs = .ok ([], fs)
  | [], _ => ⟨[], .starNil, rfl⟩
  | ⟨x, t⟩ :: fs, h => by
    simp only [fieldsWritable] at h
    obtain ⟨v, hv, e⟩ := derives_addrField (x := x) (reads_type t h.2.1).1
    obtain ⟨vs, hvs, es⟩ := reads_more fs h.2.2
    refine ⟨_, ?_, e _ _ es⟩
    have hw : lift (.comma :: fieldsToks (⟨x, t⟩ :: fs)) =
        lift (.comma :: (.field :: .identifier x :: .colon :: t.toks)) ++
        lift (moreToks fs) := by
      cases fs <;> simp [fieldsToks, moreToks]
    simp only [moreToks]
    rw [hw]
    exact .starCons (.nextAddrField rfl hv) hvs
end


/-! ### The displayed spelling -/

theorem shown_name {t : Ty} {k : Token} (hk : t.nameTok = some k) (hw : t.Writable) :
    ReadsRem t.canon t.shown ∧ ReadsArg t.canon t.shown := by
  have key : ∀ {t : Ty} {k : Token}, t.nameTok = some k → t.Writable → t.shown = [k] →
      ReadsRem t t.shown ∧ ReadsArg t t.shown := by
    intro t k hk hw e
    obtain ⟨m, hm, n, h1, h2⟩ := derives_name hk hw
    rw [e]
    constructor
    · refine ⟨_, .remGeneric (List.append_nil _).symm hm .starNil, ?_⟩
      simp only [readTypeW, mkW, readType, readArgs, applyName, applyName.go, h1, h2]
    · exact ⟨_, .argMeta hm, by simp only [readArgW, mkW, readArg, readName_eq h1 h2]⟩
  cases t <;> simp only [Ty.nameTok, reduceCtorEq] at hk
  case byStrX n =>
    by_cases h20 : n = 20
    · subst h20
      simp only [Ty.canon, if_true]
      have e : Ty.shown (.byStrX 20) = Ty.shown .byStr20 := by simp only [Ty.shown]; rfl
      rw [e]
      exact key rfl trivial (by simp only [Ty.shown]; rfl)
    · simp only [Ty.canon, if_neg h20]
      exact key (t := .byStrX n) rfl hw (by simp only [Ty.shown, if_neg h20])
  all_goals
    simp only [Ty.canon]
    exact key rfl hw (by simp only [Ty.shown]; rfl)

theorem shown_parens {t : Ty} {w : List Token} (h : ReadsRem t w) :
    ReadsRem t (inParens w) ∧ ReadsArg t (inParens w) := by
  obtain ⟨v, hv, e⟩ := h
  exact ⟨⟨_, .remParen (by simp [inParens]; repeat' constructor) (.typeRem hv), by
      simp only [readTypeW, mkW, readType, e]⟩,
    ⟨_, .argParen (by simp [inParens]; repeat' constructor) (.typeRem hv), by
      simp only [readArgW, mkW, readArg, e]⟩⟩

theorem shown_app1 {f : Str} {t r : Ty} {w : List Token} (hp : '+' ∉ f)
    (hr : namedType f [some t] = some r) (ha : ReadsArg t w) : ReadsRem r (.customIdentifier f :: w) := by
  obtain ⟨m, hm', e⟩ := derives_custom f
  have e := e hp
  obtain ⟨v, hv, ev⟩ := ha
  refine ⟨_, .remGeneric (w1 := lift [.customIdentifier f]) (w2 := lift w ++ []) (by simp) hm'
    (.starCons hv .starNil), ?_⟩
  simp only [readTypeW, mkW, readType, readArgs, applyName, applyName.go, ev, e, List.nil_append, hr]

theorem shown_app2 {f : Str} {t u r : Ty} {w x : List Token} (hp : '+' ∉ f)
    (hr : namedType f [some t, some u] = some r) (ha : ReadsArg t w) (ha' : ReadsArg u x) :
    ReadsRem r (.customIdentifier f :: (w ++ x)) := by
  obtain ⟨m, hmm, e⟩ := derives_custom f
  have e := e hp
  obtain ⟨v, hv, ev⟩ := ha
  obtain ⟨v', hv', ev'⟩ := ha'
  refine ⟨_, .remGeneric (w1 := lift [.customIdentifier f]) (w2 := lift w ++ (lift x ++ []))
    (by simp) hmm (.starCons hv (.starCons hv' .starNil)), ?_⟩
  simp only [readTypeW, mkW, readType, readArgs, applyName, applyName.go, ev, ev', e,
    List.nil_append, List.cons_append, hr]

theorem reads_shown : ∀ t : Ty, t.Writable → t.Readable → ReadsRem t.canon t.shown ∧ ReadsArg t.canon t.shown
  | .map k v, _, h => by simp [Ty.Readable] at h
  | .option t, h, hr => by
    simp only [Ty.Writable, Ty.Readable] at h hr
    simp only [Ty.shown, Ty.canon]
    exact shown_parens (shown_app1 (by decide) (by rfl) (reads_shown t h hr).2)
  | .list t, h, hr => by
    simp only [Ty.Writable, Ty.Readable] at h hr
    simp only [Ty.shown, Ty.canon]
    exact shown_parens (shown_app1 (by decide) (by rfl) (reads_shown t h hr).2)
  | .pair a b, h, hr => by
    simp only [Ty.Writable, Ty.Readable] at h hr
    simp only [Ty.shown, Ty.canon]
    exact shown_parens (shown_app2 (by decide) (by rfl) (reads_shown a h.1 hr.1).2 (reads_shown b h.2 hr.2).2)
  | .byStr20With tag fs, h, hr => by
    simp only [Ty.Writable, Ty.Readable] at h hr
    subst hr
    have e : Ty.shown (.byStr20With tag []) = Ty.toks (.byStr20With tag []) := by
      simp [Ty.shown, Ty.toks, fieldsToks]
    obtain ⟨v, hv, ev⟩ := derives_address h.1 ⟨_, .optNone, rfl⟩
    rw [e]
    simp only [Ty.canon, fieldsCanon]
    exact ⟨⟨_, .remAddress hv, by simp only [readTypeW, mkW, readType, ev]⟩,
      ⟨_, .argAddress hv, by simp only [readArgW, mkW, readArg, ev]⟩⟩
  | .int32, h, _ => shown_name rfl h
  | .int64, h, _ => shown_name rfl h
  | .int128, h, _ => shown_name rfl h
  | .int256, h, _ => shown_name rfl h
  | .uint32, h, _ => shown_name rfl h
  | .uint64, h, _ => shown_name rfl h
  | .uint128, h, _ => shown_name rfl h
  | .uint256, h, _ => shown_name rfl h
  | .string, h, _ => shown_name rfl h
  | .bNum, h, _ => shown_name rfl h
  | .bool, h, _ => shown_name rfl h
  | .byStr, h, _ => shown_name rfl h
  | .byStr20, h, _ => shown_name rfl h
  | .byStrX _, h, _ => shown_name rfl h
  | .other _, h, _ => shown_name rfl h

mutual
theorem canon_writable : ∀ t : Ty, t.Writable → t.canon.Writable
  | .map k v, h => by
    simp only [Ty.Writable, Ty.canon] at h ⊢
    refine ⟨?_, canon_writable k h.2.1, canon_writable v h.2.2⟩
    have h1 := h.1
    cases k <;> simp only [Ty.nameTok, Option.isSome_none, Bool.false_eq_true] at h1 <;> simp only [Ty.canon]
    case byStrX n => split <;> rfl
    all_goals rfl
  | .option t, h => by simp only [Ty.Writable, Ty.canon] at h ⊢; exact canon_writable t h
  | .list t, h => by simp only [Ty.Writable, Ty.canon] at h ⊢; exact canon_writable t h
  | .pair a b, h => by
    simp only [Ty.Writable, Ty.canon] at h ⊢; exact ⟨canon_writable a h.1, canon_writable b h.2⟩
  | .byStr20With tag fs, h => by
    simp only [Ty.Writable, Ty.canon] at h ⊢
    refine ⟨h.1.imp_right fun h => ⟨?_, h.2⟩, canon_fields fs h.2⟩
    rw [h.1, fieldsCanon]
  | .byStrX n, h => by
    simp only [Ty.canon]
    split
    · trivial
    · exact h
  | .int32, h => h
  | .int64, h => h
  | .int128, h => h
  | .int256, h => h
  | .uint32, h => h
  | .uint64, h => h
  | .uint128, h => h
  | .uint256, h => h
  | .string, h => h
  | .bNum, h => h
  | .bool, h => h
  | .byStr, h => h
  | .byStr20, h => h
  | .other _, h => h
theorem canon_fields : ∀ fs : List Field, fieldsWritable fs → fieldsWritable (fieldsCanon fs)
  | [], _ => trivial
  | ⟨x, t⟩ :: fs, h => by
    simp only [fieldsWritable, fieldsCanon] at h ⊢
    exact ⟨h.1, canon_writable t h.2.1, canon_fields fs h.2.2⟩
end

/-! ### Typed identifiers, parameters, fields, components, contracts -/

theorem reads_spelled {t : Ty} {w : List Token} (h : Spells t w) (hw : t.Writable) : ReadsRem t w := by
  induction h with
  | plain t => exact (reads_type t hw).1
  | shown t hw' hr => exact (reads_shown _ hw' hr).1
  | paren t w _ ih =>
    obtain ⟨v, hv, e⟩ := ih hw
    exact ⟨_, .remParen (by simp [inParens]; repeat' constructor) (.typeRem hv), by
      simp only [readTypeW, mkW, readType, e]⟩

theorem reads_typed {f : Field} {w : List Token} (h : SpellsTyped f w)
    (hw : fieldsWritable [f]) : ∃ v, Derives .typedId (lift w) v ∧ readTyped v.node = some f := by
  cases h with
  | mk x t w h =>
    simp only [fieldsWritable] at hw
    obtain ⟨v, hv, e⟩ := reads_spelled h hw.2.1
    refine ⟨_, .typedId (w1 := lift [.identifier x]) (w2 := lift (.colon :: w)) (by simp)
      (.regularId rfl) (.typeAnn rfl (.typeRem hv)), ?_⟩
    simp only [mkW, readTyped, e]

theorem fieldsWritable_cons {f : Field} {fs : List Field} (h : fieldsWritable (f :: fs)) :
    fieldsWritable [f] ∧ fieldsWritable fs := by
  cases f
  simp only [fieldsWritable] at h ⊢
  exact ⟨⟨h.1, h.2.1, trivial⟩, h.2.2⟩

theorem reads_pair {f : Field} {w : List Token} (h : SpellsTyped f w) (hw : fieldsWritable [f]) :
    ∃ v, Derives .paramPair (lift w) v ∧ readTyped v.node.identifierWithType.node = some f := by
  obtain ⟨v, hv, e⟩ := reads_typed h hw
  exact ⟨_, .paramPair hv, e⟩

theorem allSome_mk {α β : Type} {f : α → Option β} {a : α} {as : List α} {b : β} {bs : List β}
    (h : f a = some b) (h' : allSome f as = some bs) : allSome f (a :: as) = some (b :: bs) := by
  simp [allSome, h, h']

theorem reads_pairs {fs : List Field} {w : List Token} (h : SpellsMore fs w) (hw : fieldsWritable fs) :
    ∃ vs, Derives (.star .nextParamPair) (lift w) vs ∧ allSome readTyped (typedOf vs) = some fs := by
  induction h with
  | nil => exact ⟨_, .starNil, rfl⟩
  | cons f fs w ws h _ ih =>
    obtain ⟨h1, h2⟩ := fieldsWritable_cons hw
    obtain ⟨v, hv, e⟩ := reads_pair h h1
    obtain ⟨vs, hvs, es⟩ := ih h2
    refine ⟨v :: vs, ?_, allSome_mk e es⟩
    have : lift (.comma :: (w ++ ws)) = lift (.comma :: w) ++ lift ws := by simp
    rw [this]
    exact .starCons (.nextParamPair rfl hv) hvs

theorem reads_params {fs : List Field} {w : List Token} (h : SpellsParams fs w)
    (hw : fieldsWritable fs) :
    ∃ v, Derives .compParams (lift w) v ∧ allSome readTyped (typedOf v.node.parameters) = some fs := by
  cases h with
  | none =>
    exact ⟨_, .compParams (w1 := []) (w2 := []) (by simp; repeat' constructor) .optNone .starNil, rfl⟩
  | some f fs w ws h h' =>
    obtain ⟨h1, h2⟩ := fieldsWritable_cons hw
    obtain ⟨v, hv, e⟩ := reads_pair h h1
    obtain ⟨vs, hvs, es⟩ := reads_pairs h' h2
    exact ⟨_, .compParams (by simp; repeat' constructor) (.optSome hv) hvs, allSome_mk e es⟩

theorem reads_fields {fs : List Field} {w : List Token} (h : SpellsFields fs w)
    (hw : fieldsWritable fs) :
    ∃ vs, Derives (.star .contractField) (lift w) vs ∧
      allSome readTyped (fieldTypedOf vs) = some fs := by
  induction h with
  | nil => exact ⟨_, .starNil, rfl⟩
  | cons f fs w init ws h hi _ ih =>
    obtain ⟨h1, h2⟩ := fieldsWritable_cons hw
    obtain ⟨v, hv, e⟩ := reads_typed h h1
    obtain ⟨i, hi⟩ := hi
    obtain ⟨vs, hvs, es⟩ := ih h2
    refine ⟨mkW (lift (.field :: (w ++ .equals :: init))) ⟨v, i⟩ :: vs, ?_,
      allSome_mk (a := v.node) e es⟩
    · have : lift (.field :: (w ++ .equals :: (init ++ ws))) =
          lift (.field :: (w ++ .equals :: init)) ++ lift ws := by simp
      rw [this]
      exact .starCons (.contractField (by simp; repeat' constructor) hv hi) hvs

theorem derives_typeTok {s : Str} {n : Token} (h : TypeNameTok s n) :
    ∃ v, Derives .typeName (lift [n]) v ∧ v.node.display = s := by
  cases h with
  | upper => exact ⟨_, .typeNameCustom (.customId rfl), rfl⟩
  | bytes => exact ⟨_, .typeNameBytes (.byteString rfl), rfl⟩
  | event => exact ⟨_, .typeNameEvent rfl, rfl⟩

theorem reads_components {ts : List Transition} {w : List Token} (h : SpellsComponents ts w)
    (hw : ∀ t ∈ ts, fieldsWritable t.params) :
    ∃ vs, Derives (.star .compDef) (lift w) vs ∧
      allSome readTransition (transitionsOf vs) = some ts := by
  induction h with
  | nil => exact ⟨_, .starNil, rfl⟩
  | procedure ts w ws hp _ ih =>
    obtain ⟨v, hv⟩ := hp
    obtain ⟨vs, hvs, es⟩ := ih hw
    refine ⟨mkW (lift w) (.procedureComponent v) :: vs, ?_, ?_⟩
    · rw [lift_append]; exact .starCons (.compProcedure hv) hvs
    · simpa [transitionsOf, mkW] using es
  | transition t ts n ps body ws hn hps hb _ ih =>
    obtain ⟨q, hq, eq⟩ := reads_params hps (hw t (by simp))
    obtain ⟨b, hb⟩ := hb
    obtain ⟨vs, hvs, es⟩ := ih fun x hx => hw x (by simp [hx])
    have hc : ∃ c, Derives .componentId (lift [n]) c ∧ componentName c.node = t.name := by
      obtain ⟨name, params⟩ := t
      cases hn with
      | lower => exact ⟨_, .componentRegular (.regularId rfl), rfl⟩
      | type _ hn =>
        obtain ⟨v, hv, e⟩ := derives_typeTok hn
        exact ⟨_, .componentType hv, e⟩
    obtain ⟨c, hc, ec⟩ := hc
    have hd : Derives .compDef (lift (.transition :: n :: (ps ++ body))) _ :=
      .compTransition (.transDef (w1 := lift [n]) (w2 := lift ps) (w3 := lift body)
        (by simp; repeat' constructor) hc hq hb)
    generalize hg : mkW (lift (.transition :: n :: (ps ++ body))) _ = g at hd
    refine ⟨g :: vs, ?_, ?_⟩
    · have : lift (.transition :: n :: (ps ++ (body ++ ws))) =
          lift (.transition :: n :: (ps ++ body)) ++ lift ws := by simp
      rw [this]
      exact .starCons hd hvs
    · subst hg
      simp only [transitionsOf, mkW, List.filterMap_cons]
      refine allSome_mk ?_ es
      simp only [readTransition, eq, Option.map_some, ec]

/-- A written interface is a program with that interface. -/
theorem reads_contract {c : Contract} {w : List Token} (h : SpellsContract c w) (hw : c.Writable) :
    ∃ p, Derives .program (lift w) p ∧ interfaceOf p = some c := by
  cases h with
  | mk ver n imps lib ps con fs cs hn himp hlib hps hcon hfs hcs =>
    obtain ⟨nm, hnm, enm⟩ := derives_typeTok hn
    obtain ⟨i, hi⟩ := himp
    obtain ⟨l, hl⟩ := hlib
    obtain ⟨k, hk⟩ := hcon
    obtain ⟨p, hp, ep⟩ := reads_params hps hw.params
    obtain ⟨f, hf, ef⟩ := reads_fields hfs hw.fields
    obtain ⟨t, ht, et⟩ := reads_components hcs hw.transitions
    refine ⟨_, .program (w1 := lift [.number ver]) (w2 := lift imps) (w3 := lift lib)
      (w4 := lift (.contract :: n :: (ps ++ (con ++ (fs ++ cs)))))
      (by simp; repeat' constructor) (.signedInt rfl) hi hl
      (.contractDef (w1 := lift [n]) (w2 := lift ps) (w3 := lift con)
        (w4 := lift fs) (w5 := lift cs) (by simp; repeat' constructor)
        hnm hp hk hf ht), ?_⟩
    simp only [interfaceOf, mkW, ep, ef, et, enm]

end Verif
