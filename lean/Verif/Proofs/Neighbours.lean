import Verif.Spec.LRTables
import Verif.Spec.LRCheck
import Verif.Proofs.LRCheck
import Verif.Proofs.Desugar
import Verif.Proofs.LRComplete
/-
First and last terminals and neighbours, for any grammar without empty productions.
-/
namespace Verif.LR

/-- any two neighbours in the list are related -/
def Linked {α : Type} (R : α → α → Prop) : List α → Prop
  | [] => True
  | [_] => True
  | a :: b :: l => R a b ∧ Linked R (b :: l)

theorem Linked.append {α : Type} {R : α → α → Prop} : ∀ {u v : List α}, Linked R u → Linked R v →
    (∀ a ∈ u.getLast?, ∀ b ∈ v.head?, R a b) → Linked R (u ++ v)
  | [], _, _, hv, _ => hv
  | [a], [], _, _, _ => trivial
  | [a], b :: v, _, hv, h => ⟨h a rfl b rfl, hv⟩
  | a :: b :: u, v, hu, hv, h => ⟨hu.1, Linked.append (u := b :: u) hu.2 hv (by simpa [List.getLast?_cons_cons] using h)⟩

theorem Linked.split {α : Type} {R : α → α → Prop} : ∀ {u : List α} {a b : α} {v : List α}, Linked R (u ++ a :: b :: v) → R a b
  | [], _, _, _, h => h.1
  | [_], _, _, _, h => h.2.1
  | _ :: x :: u, _, _, _, h => Linked.split (u := x :: u) h.2

theorem Linked.of_split {α : Type} {R : α → α → Prop} : ∀ {l : List α}, (∀ u a b v, l = u ++ a :: b :: v → R a b) → Linked R l
  | [], _ => trivial
  | [_], _ => trivial
  | a :: b :: l, h => ⟨h [] a b l rfl, Linked.of_split fun u x y v e => h (a :: u) x y v (by rw [e]; rfl)⟩

/-- the terminals in a set, of a symbol -/
def ofSym (F : List Nat) : Sym → Nat
  | .t a => 2 ^ a
  | .n x => F[x]?.getD 0

/-- one more round: to the set of each nonterminal those of the symbols `pick` chooses -/
def round (pick : List Sym → Option Sym) : List Rule → List Nat → List Nat
  | [], F => F
  | r :: G, F =>
    match pick r.rhs with
    | some X => round pick G (F.set r.lhs ((F[r.lhs]?.getD 0) ||| ofSym F X))
    | none => round pick G F

def rounds (pick : List Sym → Option Sym) (G : List Rule) (m : Nat) : Nat → List Nat
  | 0 => List.replicate m 0
  | k + 1 => round pick G (rounds pick G m k)

/-- nothing more to find -/
def closed (pick : List Sym → Option Sym) (G : List Rule) (F : List Nat) : Bool := G.all fun r =>
  match pick r.rhs with
  | some X => sub (ofSym F X) (F[r.lhs]?.getD 0)
  | none => true

def neighbourPairs : List Sym → List (Sym × Sym)
  | X :: Y :: l => (X, Y) :: neighbourPairs (Y :: l)
  | _ => []

/-- the terminals that may follow the terminal `a` -/
def followers (F L : List Nat) (ps : List (Sym × Sym)) (a : Nat) : Nat :=
  ps.foldl (fun m p => if (ofSym L p.1).testBit a then m ||| ofSym F p.2 else m) 0

theorem mem_neighbourPairs {X Y : Sym} : ∀ {l : List Sym}, (X, Y) ∈ neighbourPairs l ↔ ∃ u v, l = u ++ X :: Y :: v
  | [] => by simp [neighbourPairs]
  | [Z] => by
    simp only [neighbourPairs, List.not_mem_nil, false_iff]
    rintro ⟨u, v, e⟩
    have := congrArg List.length e
    simp at this
    omega
  | Z :: W :: l => by
    simp only [neighbourPairs, List.mem_cons, Prod.mk.injEq, mem_neighbourPairs (l := W :: l)]
    constructor
    · rintro (⟨rfl, rfl⟩ | ⟨u, v, e⟩)
      · exact ⟨[], l, rfl⟩
      · exact ⟨Z :: u, v, by rw [e]; rfl⟩
    · rintro ⟨u, v, e⟩
      cases u with
      | nil => simp at e; exact .inl ⟨e.1.symm, e.2.1.symm⟩
      | cons z u => simp at e; exact .inr ⟨u, v, e.2⟩

theorem testBit_followers {F L : List Nat} {a b : Nat} (ps : List (Sym × Sym)) :
    (followers F L ps a).testBit b = true ↔ ∃ p ∈ ps, (ofSym L p.1).testBit a = true ∧ (ofSym F p.2).testBit b = true := by
  have gen : ∀ (ps : List (Sym × Sym)) (m : Nat),
      (ps.foldl (fun m p => if (ofSym L p.1).testBit a then m ||| ofSym F p.2 else m) m).testBit b = true ↔
        m.testBit b = true ∨ ∃ p ∈ ps, (ofSym L p.1).testBit a = true ∧ (ofSym F p.2).testBit b = true := by
    intro ps
    induction ps with
    | nil => simp
    | cons p ps ih =>
      intro m
      rw [List.foldl_cons, ih]
      by_cases h : (ofSym L p.1).testBit a = true
      · simp [h, or_assoc]
      · simp [h]
  simpa [followers] using gen ps 0

theorem testBit_of_sub {x y b : Nat} (h : sub x y = true) (hb : x.testBit b = true) : y.testBit b = true := by
  simp only [sub, beq_iff_eq] at h
  rw [← h, Nat.testBit_and, Bool.and_eq_true] at hb
  exact hb.2

variable {G : List Rule}

/-- what the sets say at least -/
theorem der_sound {F L : List Nat} {R : Nat → Nat → Prop} (hne : ∀ r ∈ G, r.rhs ≠ [])
    (hF : closed List.head? G F = true) (hL : closed List.getLast? G L = true)
    (hR : ∀ r ∈ G, Linked (fun X Y => ∀ a b, (ofSym L X).testBit a = true → (ofSym F Y).testBit b = true → R a b) r.rhs)
    {β : List Sym} {w : List Nat} (h : Der G β w) :
    (∀ X ∈ β.head?, ∃ b ∈ w.head?, (ofSym F X).testBit b = true) ∧
    (∀ X ∈ β.getLast?, ∃ a ∈ w.getLast?, (ofSym L X).testBit a = true) ∧
    (β = [] → w = []) ∧
    (Linked (fun X Y => ∀ a b, (ofSym L X).testBit a = true → (ofSym F Y).testBit b = true → R a b) β → Linked R w) := by
  induction h with
  | nil => simp [Linked]
  | @t a α w _ ih =>
    obtain ⟨i1, i2, i3, i4⟩ := ih
    refine ⟨?_, ?_, by simp, ?_⟩
    · intro X hX
      simp only [List.head?_cons, Option.mem_some_iff] at hX
      subst hX
      exact ⟨a, rfl, by simp [ofSym, Nat.testBit_two_pow_self]⟩
    · intro X hX
      cases α with
      | nil =>
        simp at hX
        subst hX
        rw [i3 rfl]
        exact ⟨a, rfl, by simp [ofSym, Nat.testBit_two_pow_self]⟩
      | cons Y α =>
        obtain ⟨b, hb, hb'⟩ := i1 Y rfl
        cases w with
        | nil => simp at hb
        | cons c w =>
          rw [List.getLast?_cons_cons] at hX ⊢
          exact i2 X hX
    · intro hl
      cases α with
      | nil => rw [i3 rfl]; trivial
      | cons Y α =>
        obtain ⟨b, hb, hb'⟩ := i1 Y rfl
        cases w with
        | nil => simp at hb
        | cons c w =>
          simp at hb
          subst hb
          exact ⟨hl.1 _ _ (by simp [ofSym, Nat.testBit_two_pow_self]) hb', i4 hl.2⟩
  | @n r α u w hr _ _ ihu ihw =>
    obtain ⟨u1, u2, -, u4⟩ := ihu
    obtain ⟨i1, i2, i3, i4⟩ := ihw
    have hn := hne r hr
    have hfirst : ∃ b ∈ u.head?, (ofSym F (.n r.lhs)).testBit b = true := by
      obtain ⟨X, hX⟩ : ∃ X, r.rhs.head? = some X := by
        cases e : r.rhs with
        | nil => exact absurd e hn
        | cons X l => exact ⟨X, rfl⟩
      obtain ⟨b, hb, h1⟩ := u1 X hX
      have h2 := List.all_eq_true.1 hF r hr
      simp only [hX] at h2
      exact ⟨b, hb, testBit_of_sub h2 h1⟩
    have hlast : ∃ a ∈ u.getLast?, (ofSym L (.n r.lhs)).testBit a = true := by
      obtain ⟨X, hX⟩ : ∃ X, r.rhs.getLast? = some X := by
        cases e : r.rhs.getLast? with
        | none => exact absurd (List.getLast?_eq_none_iff.1 e) hn
        | some X => exact ⟨X, rfl⟩
      obtain ⟨b, hb, h1⟩ := u2 X hX
      have h2 := List.all_eq_true.1 hL r hr
      simp only [hX] at h2
      exact ⟨b, hb, testBit_of_sub h2 h1⟩
    refine ⟨?_, ?_, by simp, ?_⟩
    · intro X hX
      simp only [List.head?_cons, Option.mem_some_iff] at hX
      subst hX
      obtain ⟨b, hb, h1⟩ := hfirst
      refine ⟨b, ?_, h1⟩
      rw [List.head?_append, Option.mem_def.1 hb]
      rfl
    · intro X hX
      cases α with
      | nil =>
        simp at hX
        subst hX
        rw [i3 rfl, List.append_nil]
        exact hlast
      | cons Y α =>
        rw [List.getLast?_cons_cons] at hX
        obtain ⟨a, ha, h1⟩ := i2 X hX
        refine ⟨a, ?_, h1⟩
        rw [List.getLast?_append, Option.mem_def.1 ha]
        rfl
    · intro hl
      have hw : Linked R w := by
        cases α with
        | nil => rw [i3 rfl]; trivial
        | cons Y α => exact i4 hl.2
      refine Linked.append (u4 (hR r hr)) hw ?_
      intro a ha b hb
      cases α with
      | nil => rw [i3 rfl] at hb; simp at hb
      | cons Y α =>
        obtain ⟨a', ha', h1⟩ := hlast
        obtain ⟨b', hb', h2⟩ := i1 Y rfl
        rw [Option.mem_def] at *
        rw [ha] at ha'
        rw [hb] at hb'
        cases ha'; cases hb'
        exact hl.1 _ _ h1 h2

/-- what the sets say at most -/
theorem rounds_spec {pick : List Sym → Option Sym} {Q : Nat → Nat → Prop} (m : Nat)
    (hp : ∀ r ∈ G, ∀ X, pick r.rhs = some X → (∀ a, X = .t a → Q r.lhs a) ∧ ∀ x a, X = .n x → Q x a → Q r.lhs a) (k : Nat) :
    ∀ x a, ((rounds pick G m k)[x]?.getD 0).testBit a = true → Q x a := by
  have step : ∀ (G' : List Rule) (F : List Nat), (∀ r ∈ G', r ∈ G) →
      (∀ x a, (F[x]?.getD 0).testBit a = true → Q x a) → ∀ x a, ((round pick G' F)[x]?.getD 0).testBit a = true → Q x a := by
    intro G'
    induction G' with
    | nil => intro F _ h; exact h
    | cons r G' ih =>
      intro F hG h
      unfold round
      cases e : pick r.rhs with
      | none => exact ih F (fun r hr => hG r (List.mem_cons_of_mem _ hr)) h
      | some X =>
        refine ih _ (fun r hr => hG r (List.mem_cons_of_mem _ hr)) ?_
        intro x a hx
        obtain ⟨p1, p2⟩ := hp r (hG r List.mem_cons_self) X e
        rw [List.getElem?_set] at hx
        by_cases hxr : r.lhs = x
        · subst hxr
          simp only [if_true] at hx
          split at hx
          · simp only [Option.getD_some, Nat.testBit_or, Bool.or_eq_true] at hx
            rcases hx with hx | hx
            · exact h _ _ hx
            · cases X with
              | t b =>
                simp only [ofSym, Nat.testBit_two_pow, decide_eq_true_eq] at hx
                subst hx
                exact p1 _ rfl
              | n y => exact p2 y a rfl (h _ _ hx)
          · simp at hx
        · rw [if_neg hxr] at hx
          exact h _ _ hx
  induction k with
  | zero =>
    intro x a h
    simp only [rounds, List.getElem?_replicate] at h
    split at h <;> simp at h
  | succ k ih => exact step G _ (fun _ h => h) ih

theorem productive_list (hp : ∀ r ∈ G, ∀ x, .n x ∈ r.rhs → ∃ w, Der G [.n x] w) {r : Rule} (hr : r ∈ G) :
    ∀ {l : List Sym}, (∀ X ∈ l, X ∈ r.rhs) → ∃ w, Der G l w
  | [], _ => ⟨[], .nil⟩
  | X :: l, h => by
    obtain ⟨w, hw⟩ := productive_list hp hr (l := l) fun Y hY => h Y (List.mem_cons_of_mem _ hY)
    cases X with
    | t a => exact ⟨_, .t hw⟩
    | n x =>
      obtain ⟨u, hu⟩ := hp r hr x (h _ List.mem_cons_self)
      exact ⟨_, Der.app (α := [.n x]) hu hw⟩

theorem first_complete (hp : ∀ r ∈ G, ∀ x, .n x ∈ r.rhs → ∃ w, Der G [.n x] w) (m k : Nat) (X : Sym) (b : Nat)
    (h : (ofSym (rounds List.head? G m k) X).testBit b = true) : ∃ w, Der G [X] (b :: w) := by
  cases X with
  | t a =>
    simp only [ofSym, Nat.testBit_two_pow, decide_eq_true_eq] at h
    subst h
    exact ⟨[], .t .nil⟩
  | n x =>
    refine rounds_spec (Q := fun x b => ∃ w, Der G [.n x] (b :: w)) m ?_ k x b h
    intro r hr X hX
    obtain ⟨l, e⟩ : ∃ l, r.rhs = X :: l := by
      cases e : r.rhs with
      | nil => rw [e] at hX; cases hX
      | cons Y l => rw [e] at hX; simp at hX; subst hX; exact ⟨l, rfl⟩
    obtain ⟨w, hw⟩ := productive_list hp hr (l := l) fun Y hY => by rw [e]; exact List.mem_cons_of_mem _ hY
    constructor
    · rintro a rfl
      exact ⟨w, Der.rule hr (by rw [e]; exact .t hw)⟩
    · rintro x a rfl ⟨u, hu⟩
      exact ⟨u ++ w, Der.rule hr (by rw [e]; exact Der.app hu hw)⟩

theorem last_complete (hp : ∀ r ∈ G, ∀ x, .n x ∈ r.rhs → ∃ w, Der G [.n x] w) (m k : Nat) (X : Sym) (b : Nat)
    (h : (ofSym (rounds List.getLast? G m k) X).testBit b = true) : ∃ w, Der G [X] (w ++ [b]) := by
  cases X with
  | t a =>
    simp only [ofSym, Nat.testBit_two_pow, decide_eq_true_eq] at h
    subst h
    exact ⟨[], .t .nil⟩
  | n x =>
    refine rounds_spec (Q := fun x b => ∃ w, Der G [.n x] (w ++ [b])) m ?_ k x b h
    intro r hr X hX
    obtain ⟨l, e⟩ : ∃ l, r.rhs = l ++ [X] := List.getLast?_eq_some_iff.1 hX
    obtain ⟨w, hw⟩ := productive_list hp hr (l := l) fun Y hY => by rw [e]; exact List.mem_append_left _ hY
    constructor
    · rintro a rfl
      exact ⟨w, Der.rule hr (by rw [e]; exact Der.app hw (.t .nil))⟩
    · rintro x a rfl ⟨u, hu⟩
      exact ⟨w ++ u, Der.rule hr (by rw [e, List.append_assoc]; exact Der.app hw hu)⟩

/-- the nonterminals found to be of use, one production after the other -/
def useful : List Rule → List Nat → List Nat
  | [], acc => acc
  | r :: G, acc => if acc.contains r.lhs then
      useful G (r.rhs.filterMap (fun X => match X with | .n x => if acc.contains x then none else some x | _ => none) ++ acc)
    else useful G acc

def usefuls (G : List Rule) (s : Nat) : Nat → List Nat
  | 0 => [s]
  | k + 1 => useful G (usefuls G s k)

theorem usefuls_spec (hp : ∀ r ∈ G, ∀ x, .n x ∈ r.rhs → ∃ w, Der G [.n x] w) (s k : Nat) :
    ∀ x ∈ usefuls G s k, ∃ u v, ∀ w, Der G [.n x] w → Der G [.n s] (u ++ (w ++ v)) := by
  have step : ∀ (G' : List Rule) (acc : List Nat), (∀ r ∈ G', r ∈ G) →
      (∀ x ∈ acc, ∃ u v, ∀ w, Der G [.n x] w → Der G [.n s] (u ++ (w ++ v))) →
      ∀ x ∈ useful G' acc, ∃ u v, ∀ w, Der G [.n x] w → Der G [.n s] (u ++ (w ++ v)) := by
    intro G'
    induction G' with
    | nil => intro acc _ h; exact h
    | cons r G' ih =>
      intro acc hG h
      unfold useful
      split
      · rename_i hc
        refine ih _ (fun r hr => hG r (List.mem_cons_of_mem _ hr)) ?_
        intro x hx
        rw [List.mem_append, List.mem_filterMap] at hx
        rcases hx with ⟨X, hX, e⟩ | hx
        · cases X with
          | t a => simp at e
          | n y =>
            simp only at e
            split at e
            · cases e
            · cases e
              obtain ⟨u, v, huv⟩ := h r.lhs (by simpa using hc)
              obtain ⟨l, l', el⟩ := List.append_of_mem hX
              have hr := hG r List.mem_cons_self
              obtain ⟨w1, h1⟩ := productive_list hp hr (l := l) fun Y hY => by rw [el]; exact List.mem_append_left _ hY
              obtain ⟨w2, h2⟩ := productive_list hp hr (l := l') fun Y hY => by
                rw [el]; exact List.mem_append_right _ (List.mem_cons_of_mem _ hY)
              refine ⟨u ++ w1, w2 ++ v, fun w hw => ?_⟩
              have := huv _ (Der.rule hr (by rw [el]; exact Der.app h1 (Der.app (α := [.n x]) hw h2)))
              simpa [List.append_assoc] using this
        · exact h x hx
      · exact ih _ (fun r hr => hG r (List.mem_cons_of_mem _ hr)) h
  induction k with
  | zero =>
    intro x hx
    simp only [usefuls, List.mem_singleton] at hx
    subst hx
    exact ⟨[], [], fun w hw => by simpa using hw⟩
  | succ k ih => exact step G _ (fun _ h => h) ih

/-- exactly the neighbours in what the nonterminal `s` derives -/
theorem neighbours_iff (hne : ∀ r ∈ G, r.rhs ≠ []) (hp : ∀ r ∈ G, ∀ x, .n x ∈ r.rhs → ∃ w, Der G [.n x] w) (s m k : Nat)
    (hF : closed List.head? G (rounds List.head? G m k) = true) (hL : closed List.getLast? G (rounds List.getLast? G m k) = true)
    {G' : List Rule} (hG' : ∀ r ∈ G', r ∈ G) (hG : ∀ r ∈ G, r ∈ G' ∨ r.rhs.length ≤ 1)
    (hu : ∀ r ∈ G', r.lhs ∈ usefuls G s k) (a b : Nat) :
    (∃ u v, Der G [.n s] (u ++ a :: b :: v)) ↔
      (followers (rounds List.head? G m k) (rounds List.getLast? G m k) (G'.flatMap fun r => neighbourPairs r.rhs) a).testBit b
        = true := by
  rw [testBit_followers]
  constructor
  · rintro ⟨u, v, h⟩
    have hs := der_sound (R := fun a b => ∃ p ∈ G'.flatMap fun r => neighbourPairs r.rhs,
      (ofSym (rounds List.getLast? G m k) p.1).testBit a = true ∧ (ofSym (rounds List.head? G m k) p.2).testBit b = true)
      hne hF hL ?_ h
    · exact (hs.2.2.2 trivial).split
    · intro r hr
      refine Linked.of_split ?_
      intro u X Y v e a b ha hb
      rcases hG r hr with h' | h'
      · exact ⟨(X, Y), List.mem_flatMap.2 ⟨r, h', mem_neighbourPairs.2 ⟨u, v, e⟩⟩, ha, hb⟩
      · rw [e] at h'
        simp at h'
        omega
  · rintro ⟨⟨X, Y⟩, hXY, ha, hb⟩
    obtain ⟨r, hr', hXY⟩ := List.mem_flatMap.1 hXY
    have hr := hG' r hr'
    obtain ⟨l, l', e⟩ := mem_neighbourPairs.1 hXY
    obtain ⟨u, v, huv⟩ := usefuls_spec hp s k r.lhs (hu r hr')
    obtain ⟨wa, h1⟩ := last_complete hp m k X a ha
    obtain ⟨wb, h2⟩ := first_complete hp m k Y b hb
    obtain ⟨w1, h3⟩ := productive_list hp hr (l := l) fun Y hY => by rw [e]; exact List.mem_append_left _ hY
    obtain ⟨w2, h4⟩ := productive_list hp hr (l := l') fun Y hY => by
      rw [e]; exact List.mem_append_right _ (List.mem_cons_of_mem _ (List.mem_cons_of_mem _ hY))
    have := huv _ (Der.rule hr (by rw [e]; exact Der.app h3 (Der.app (α := [X]) h1 (Der.app (α := [Y]) h2 h4))))
    exact ⟨u ++ (w1 ++ wa), wb ++ (w2 ++ v), by simpa [List.append_assoc] using this⟩

end Verif.LR
