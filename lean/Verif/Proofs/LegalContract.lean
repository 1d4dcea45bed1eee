import Verif.Proofs.LegalTree
/-
Contracts built from legal names are writable.
-/
namespace Verif

set_option linter.unusedSimpArgs false
set_option linter.unusedVariables false

variable (dbg : StackObj → Str)

theorem fieldsWritable_append : ∀ {a b : List Field}, fieldsWritable a → fieldsWritable b →
    fieldsWritable (a ++ b)
  | [], b, _, h => h
  | ⟨x, t⟩ :: a, b, h, h' => ⟨h.1, h.2.1, fieldsWritable_append h.2.2 h'⟩

theorem notLost0 {st : List StackObj} (h : Lost 0 st) : False := Nat.not_lt_zero _ h

/-- a typed identifier followed by the pop of its declaration -/
theorem typedPop {b : Nat} {n : NodeTypedIdentifier} (h : TypedOk dbg n) :
    Ht b (Good b) ((evTyped dbg n).bind fun _ => popVar dbg) fun f st => fieldsWritable [f] ∧ Good b st :=
  (h b).bind fun _ => Ht.fromTop (Ht.popVar dbg)

theorem evInitT_legal : ∀ (ps : List NodeTypedIdentifier) (s s2 : SrState) (u : Unit),
    (∀ p ∈ ps, TypedOk dbg p) → Good 0 s.stack → evInitT dbg ps s = (s2, .ok u) →
    Good 0 s2.stack ∧ ∃ fs, fieldsWritable fs ∧
      s2.contract = { s.contract with initParams := s.contract.initParams ++ fs }
  | [], s, s2, u, _, hg, h => by
    simp only [evInitT, M.pure, Prod.mk.injEq] at h
    obtain ⟨rfl, _⟩ := h
    exact ⟨hg, [], trivial, by simp⟩
  | p :: ps, s, s2, u, hp, hg, h => by
    rw [evInitT, ← M.bind_assoc] at h
    obtain ⟨s1, x, h1, h2⟩ := bind_ok h
    have ht := typedPop dbg (b := 0) (hp p (by simp))
    have hc := (ht.tame s).1
    rw [h1] at hc
    rcases (ht.run s hg).1 _ _ h1 with ⟨hx, hg1⟩ | hl
    · obtain ⟨s3, v, h3, h4⟩ := bind_ok h2
      simp only [Prod.mk.injEq] at h3
      obtain ⟨rfl, _⟩ := h3
      obtain ⟨hg2, fs, hf, hc2⟩ := evInitT_legal ps _ _ _ (fun q hq => hp q (by simp [hq])) (by exact hg1) h4
      refine ⟨hg2, x :: fs, fieldsWritable_add hx hf, ?_⟩
      rw [hc2]
      simp only at hc ⊢
      rw [hc]
      simp
    · exact (notLost0 hl).elim

theorem evFieldsT_legal : ∀ (ps : List NodeTypedIdentifier) (s s2 : SrState) (u : Unit),
    (∀ p ∈ ps, TypedOk dbg p) → Good 0 s.stack → evFieldsT dbg ps s = (s2, .ok u) →
    Good 0 s2.stack ∧ ∃ fs, fieldsWritable fs ∧
      s2.contract = { s.contract with fields := s.contract.fields ++ fs }
  | [], s, s2, u, _, hg, h => by
    simp only [evFieldsT, M.pure, Prod.mk.injEq] at h
    obtain ⟨rfl, _⟩ := h
    exact ⟨hg, [], trivial, by simp⟩
  | p :: ps, s, s2, u, hp, hg, h => by
    rw [evFieldsT, ← M.bind_assoc] at h
    obtain ⟨s1, x, h1, h2⟩ := bind_ok h
    have ht := typedPop dbg (b := 0) (hp p (by simp))
    have hc := (ht.tame s).1
    rw [h1] at hc
    rcases (ht.run s hg).1 _ _ h1 with ⟨hx, hg1⟩ | hl
    · obtain ⟨s3, v, h3, h4⟩ := bind_ok h2
      simp only [addField, Prod.mk.injEq] at h3
      obtain ⟨rfl, _⟩ := h3
      obtain ⟨hg2, fs, hf, hc2⟩ := evFieldsT_legal ps _ _ _ (fun q hq => hp q (by simp [hq])) (by exact hg1) h4
      refine ⟨hg2, x :: fs, fieldsWritable_add hx hf, ?_⟩
      rw [hc2]
      simp only at hc ⊢
      rw [hc]
      simp
    · exact (notLost0 hl).elim

theorem evAgainT_legal (b : Nat) : ∀ (ps : List NodeTypedIdentifier), (∀ p ∈ ps, TypedOk dbg p) →
    Ht b (Good b) (evAgainT dbg ps) fun _ => Good b
  | [], _ => Ht.pure (Q := fun _ => Good b) ()
  | p :: ps, h => (h p (by simp) b).bind fun _ => evAgainT_legal b ps fun q hq => h q (by simp [hq])

theorem evParamsT_tame : ∀ (ps : List NodeTypedIdentifier), Tame (evParamsT dbg ps)
  | [] => Tame.pure _
  | p :: ps => Tame.bind (Tame.typed dbg p) fun _ => Tame.bind (Tame.popVar dbg) fun _ =>
      Tame.bind (evParamsT_tame ps) fun _ => Tame.pure _

theorem evParamsT_legal (b : Nat) : ∀ (ps : List NodeTypedIdentifier), (∀ p ∈ ps, TypedOk dbg p) →
    Ht b (Good b) (evParamsT dbg ps) fun fs st => fieldsWritable fs ∧ Good b st
  | [], _ => (Ht.pure (Q := fun fs st => fieldsWritable fs ∧ Good b st) []).weaken
      (fun st h => ⟨trivial, h⟩) fun _ _ h => h
  | p :: ps, h => by
    rw [evParamsT]
    refine (h p (by simp) b).bind fun _ => (Ht.fromTop (Ht.popVar dbg)).bind fun x => ?_
    refine Ht.assume (Tame.bind (evParamsT_tame dbg ps) fun _ => Tame.pure _) fun hx => ?_
    refine (evParamsT_legal b ps fun q hq => h q (by simp [hq])).bind fun xs => ?_
    exact (Ht.pure (Q := fun fs st => fieldsWritable fs ∧ Good b st) (x :: xs)).weaken
      (fun st hs => ⟨fieldsWritable_add hx hs.1, hs.2⟩) fun _ _ h => h

theorem evTransT_legal {name : Str} {ps : List NodeTypedIdentifier} {s s2 : SrState} {u : Unit}
    (hp : ∀ p ∈ ps, TypedOk dbg p) (hg : Good 0 s.stack) (h : evTransT dbg name ps s = (s2, .ok u)) :
    Good 0 s2.stack ∧ ∃ n fs, fieldsWritable fs ∧
      s2.contract = { s.contract with transitions := s.contract.transitions ++ [⟨n, fs⟩] } := by
  rw [evTransT] at h
  obtain ⟨s1, x, h1, h⟩ := bind_ok h
  simp only [SrState.pushObj, Prod.mk.injEq] at h1
  obtain ⟨rfl, _⟩ := h1
  obtain ⟨s3, fs, h3, h⟩ := bind_ok h
  have ht := evParamsT_legal dbg 1 ps hp
  have hg1 : Good 1 (.ident name .componentName :: s.stack) := by
    refine ⟨?_, by simp [comps, hg.2]⟩
    intro y hy
    rcases List.mem_cons.1 hy with rfl | hy
    · trivial
    · exact hg.1 y hy
  have hc := (ht.tame ⟨.ident name .componentName :: s.stack, s.contract⟩).1
  rw [h3] at hc
  have hr := (ht.run _ hg1).1 _ _ h3
  obtain ⟨s4, x, h4, h⟩ := bind_ok h
  obtain ⟨hst, hc4⟩ := popIdent_ok dbg h4
  obtain ⟨n, k⟩ := x
  split at h
  · rename_i hk
    simp only at hk; subst hk
    simp only [addTransition, Prod.mk.injEq] at h
    obtain ⟨rfl, _⟩ := h
    rw [hst] at hr
    rcases hr with ⟨hf, hg3⟩ | hl
    · refine ⟨⟨fun y hy => hg3.1 y (List.mem_cons_of_mem _ hy), ?_⟩, n, fs, hf, ?_⟩
      · have := hg3.2
        simp only [comps, List.length_cons] at this
        show (comps s4.stack).length = 0
        omega
      · simp only at hc ⊢
        rw [hc4, hc]
    · unfold Lost at hl
      simp [comps] at hl
  · simp [M.panic] at h

theorem evTranssT_legal : ∀ (ts : List NodeTransitionDefinition) (s s2 : SrState) (u : Unit),
    (∀ t ∈ ts, TransOk dbg t) → Good 0 s.stack → evTranssT dbg ts s = (s2, .ok u) →
    ∃ rs : List Transition, (∀ r ∈ rs, fieldsWritable r.params) ∧
      s2.contract = { s.contract with transitions := s.contract.transitions ++ rs }
  | [], s, s2, u, _, hg, h => by
    simp only [evTranssT, M.pure, Prod.mk.injEq] at h
    obtain ⟨rfl, _⟩ := h
    exact ⟨[], by simp, by simp⟩
  | t :: ts, s, s2, u, ht, hg, h => by
    rw [evTranssT] at h
    obtain ⟨s1, x, h1, h2⟩ := bind_ok h
    obtain ⟨hg1, n, fs, hf, hc⟩ := evTransT_legal dbg (ht t (by simp)).params hg h1
    obtain ⟨rs, hr, hc2⟩ := evTranssT_legal ts _ _ _ (fun q hq => ht q (by simp [hq])) hg1 h2
    refine ⟨⟨n, fs⟩ :: rs, ?_, ?_⟩
    · intro r hr'
      rcases List.mem_cons.1 hr' with rfl | hr'
      · exact hf
      · exact hr r hr'
    · rw [hc2, hc]; simp

theorem contract_writable {p : NodeProgram} {c : Contract} (hp : ContractOk dbg p.contractDefinition.node)
    (h : emitProgram dbg p = .ok c) : c.Writable := by
  rw [emitProgram_ev, evContract_T] at h
  obtain ⟨hn, hps, hfs, hts⟩ := hp
  generalize typedOf p.contractDefinition.node.parameters.node.parameters = ps at *
  generalize fieldTypedOf p.contractDefinition.node.fields = fs at *
  generalize transitionsOf p.contractDefinition.node.components = ts at *
  generalize p.contractDefinition.node.contractName.node = name at *
  cases hr : evIface dbg name ps fs ts SrState.init with
  | mk sf r =>
    rw [hr] at h
    cases r with
    | err e => simp at h
    | panic => simp at h
    | ok u =>
      simp only [Outcome.ok.injEq] at h
      subst h
      rw [evIface] at hr
      obtain ⟨s1, u1, h1, k1⟩ := bind_ok hr
      obtain ⟨s2, u2, h2, k2⟩ := bind_ok k1
      obtain ⟨s3, u3, h3, k3⟩ := bind_ok k2
      obtain ⟨s4, u4, h4, k4⟩ := bind_ok k3
      obtain ⟨s5, u5, h5, k5⟩ := bind_ok k4
      have g0 : Good 0 SrState.init.stack := ⟨by simp [SrState.init], rfl⟩
      have hc1 := ((hn.run 0).tame SrState.init).1
      rw [h1] at hc1
      rcases ((hn.run 0).run _ g0).1 _ _ h1 with g1 | hl
      case inr => exact (notLost0 hl).elim
      simp only [setName, Prod.mk.injEq] at h2
      obtain ⟨rfl, _⟩ := h2
      obtain ⟨g3, as, ha, hca⟩ := evInitT_legal dbg _ _ _ _ hps (by exact g1) h3
      have h4' := evAgainT_legal dbg 0 ps hps
      have hc4 := (h4'.tame s3).1
      rw [h4] at hc4
      rcases (h4'.run _ g3).1 _ _ h4 with g4 | hl
      case inr => exact (notLost0 hl).elim
      obtain ⟨g5, bs, hb, hcb⟩ := evFieldsT_legal dbg _ _ _ _ hfs g4 h5
      obtain ⟨rs, hrs, hcc⟩ := evTranssT_legal dbg _ _ _ _ hts g5 k5
      simp only at hc1 hc4
      have hfin : sf.contract = ⟨name.display, as, bs, rs⟩ := by
        rw [hcc, hcb, hc4, hca]
        simp only [hc1]
        simp [SrState.init, Contract.empty]
      rw [hfin]
      exact ⟨ha, hb, hrs⟩

/-! ### Names -/

theorem printable_upper_ne {s : Str} (h : Printable (.customIdentifier s)) : contractTok s = .customIdentifier s := by
  have h1 : s ≠ str! "Event" := by
    rintro rfl
    exact h.2.1 (by decide)
  rw [contractTok, if_neg h1, if_neg h.2.2]

theorem printable_bytes_ne {s : Str} (h : Printable (.byStrWithSize s)) : contractTok s = .byStrWithSize s := by
  obtain ⟨ds, rfl, _⟩ := h
  rw [contractTok, if_neg (by simp), if_pos ⟨ds, rfl⟩]

theorem TypeNameOk.printable {n : NodeTypeNameIdentifier} (h : TypeNameOk n) :
    Printable (contractTok n.display) := by
  cases n with
  | byteStringType b =>
    have h' : Printable (.byStrWithSize b.display) := h
    show Printable (contractTok b.display)
    rw [printable_bytes_ne h']; exact h'
  | eventType => exact trivial
  | typeOrEnumLikeIdentifier s =>
    have h' : Printable (.customIdentifier s.node) := h
    show Printable (contractTok s.node)
    rw [printable_upper_ne h']; exact h'

theorem TypeNameOk.head {n : NodeTypeNameIdentifier} (h : TypeNameOk n) :
    transitionTok n.display = contractTok n.display := by
  have key : ∀ s : Str, (∃ c w, s = c :: w ∧ c ≤ 'Z') → transitionTok s = contractTok s := by
    rintro s ⟨c, w, rfl, hc⟩
    have : ¬ ('a' ≤ c ∧ c ≤ 'z') := by
      rintro ⟨h1, _⟩
      exact absurd (Nat.le_trans (UInt32.le_iff_toNat_le.1 h1) (UInt32.le_iff_toNat_le.1 hc)) (by decide)
    simp [transitionTok, this]
  cases n with
  | byteStringType b =>
    obtain ⟨ds, e, _⟩ := (h : Printable (.byStrWithSize b.display))
    exact key _ ⟨'B', _, by show b.display = _; rw [e]; rfl, by decide⟩
  | eventType => exact key _ ⟨'E', _, rfl, by decide⟩
  | typeOrEnumLikeIdentifier s =>
    obtain ⟨⟨c, w, e, _, h2, _⟩, _⟩ := (h : Printable (.customIdentifier s.node))
    exact key _ ⟨c, w, e, h2⟩

theorem ComponentOk.printable {n : NodeComponentId} (h : ComponentOk n) :
    Printable (transitionTok (componentName n)) := by
  cases n with
  | withTypeLikeName n =>
    show Printable (transitionTok n.node.display)
    rw [TypeNameOk.head h]
    exact TypeNameOk.printable h
  | withRegularId x =>
    have h' : Printable (.identifier x.node) := h
    show Printable (transitionTok x.node)
    have : transitionTok x.node = .identifier x.node := by
      obtain ⟨⟨c, w, e, h1, h2, _⟩, _⟩ := h'
      rw [e]
      simp [transitionTok, h1, h2]
    rw [this]; exact h'

theorem contract_named {p : NodeProgram} {c : Contract} (hp : ContractOk dbg p.contractDefinition.node)
    (h : emitProgram dbg p = .ok c) : c.Named := by
  obtain ⟨h1, _, _, h4⟩ := emitProgram_ok dbg h
  refine ⟨?_, ?_⟩
  · rw [h1]; exact hp.name.printable
  · intro t ht
    have : (t.name, t.params.map Field.name) ∈ c.transitions.map (fun r => (r.name, r.params.map Field.name)) :=
      List.mem_map_of_mem ht
    rw [h4] at this
    obtain ⟨d, hd, e⟩ := List.mem_map.1 this
    simp only [Prod.mk.injEq] at e
    rw [← e.1]
    exact (hp.transitions d hd).name.printable

end Verif
