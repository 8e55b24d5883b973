/-
What `BuildSchema` does when it is called again: `Join` never undoes a link, so joining the same list again makes a ring.
-/
import Verif.Proofs.HeapBuild

namespace GQL

/-! ### Links -/

section
variable {α : Type}

/-- Node `a` points to node `b`. -/
def Points (h : Heap α) (a b : Nat) : Prop := ∃ nd, h[a]? = some nd ∧ nd.next = some b

/-- Node `a` is the end of a list. -/
def Ends (h : Heap α) (a : Nat) : Prop := ∃ nd, h[a]? = some nd ∧ nd.next = none

/-- From node `a` one comes to node `b`. -/
inductive Path (h : Heap α) : Nat → Nat → Prop
  | refl (a : Nat) : Path h a a
  | step {a b c : Nat} : Points h a b → Path h b c → Path h a c

/-- Following the links from `p` never comes to an end. -/
def Endless (h : Heap α) (p : Ptr) : Prop := ∃ S : Nat → Prop, (∃ a, p = some a ∧ S a) ∧ ∀ a, S a → ∃ b, Points h a b ∧ S b

/-- No link of `h` is gone in `h'`, and no item has changed. -/
def Links (h h' : Heap α) : Prop := ∀ (a : Nat) (nd : Node α), h[a]? = some nd → ∃ nd', h'[a]? = some nd' ∧ nd'.data = nd.data ∧ (nd.next = none ∨ nd'.next = nd.next)

/-- Items and links are the same. -/
def SameLinks (h h' : Heap α) : Prop := ∀ a : Nat, (h[a]?.map fun nd => (nd.data, nd.next)) = (h'[a]?.map fun nd => (nd.data, nd.next))

theorem SameLinks.refl (h : Heap α) : SameLinks h h := fun _ => rfl
theorem SameLinks.symm {h h' : Heap α} (s : SameLinks h h') : SameLinks h' h := fun a => (s a).symm
theorem SameLinks.trans {h h' h'' : Heap α} (s : SameLinks h h') (t : SameLinks h' h'') : SameLinks h h'' := fun a => (s a).trans (t a)

theorem SameLinks.some {h h' : Heap α} (s : SameLinks h h') {a : Nat} {nd : Node α} (e : h[a]? = some nd) :
    ∃ nd', h'[a]? = .some nd' ∧ nd'.data = nd.data ∧ nd'.next = nd.next := by
  have := s a
  rw [e] at this
  cases h2 : h'[a]? with
  | none => rw [h2] at this; cases this
  | some nd' =>
    rw [h2] at this
    simp only [Option.map_some, Option.some.injEq, Prod.mk.injEq] at this
    exact ⟨nd', rfl, this.1.symm, this.2.symm⟩

theorem SameLinks.none {h h' : Heap α} (s : SameLinks h h') {a : Nat} (e : h[a]? = none) : h'[a]? = .none := by
  have := s a
  rw [e] at this
  cases h2 : h'[a]? with
  | none => rfl
  | some nd' => rw [h2] at this; cases this

theorem SameLinks.links {h h' : Heap α} (s : SameLinks h h') : Links h h' := fun _ _ e => by
  obtain ⟨nd', h1, h2, h3⟩ := s.some e
  exact ⟨nd', h1, h2, .inr h3⟩

theorem Links.refl (h : Heap α) : Links h h := (SameLinks.refl h).links

theorem Links.trans {h h' h'' : Heap α} (s : Links h h') (t : Links h' h'') : Links h h'' := fun a nd e => by
  obtain ⟨n1, e1, d1, c1⟩ := s a nd e
  obtain ⟨n2, e2, d2, c2⟩ := t a n1 e1
  refine ⟨n2, e2, d2.trans d1, ?_⟩
  rcases c1 with c1 | c1
  · exact .inl c1
  · rcases c2 with c2 | c2
    · exact .inl (c1 ▸ c2)
    · exact .inr (c2.trans c1)

theorem Links.points {h h' : Heap α} (s : Links h h') {a b : Nat} (p : Points h a b) : Points h' a b := by
  obtain ⟨nd, e, n⟩ := p
  obtain ⟨n1, e1, -, c⟩ := s a nd e
  refine ⟨n1, e1, ?_⟩
  rcases c with c | c
  · rw [n] at c; cases c
  · exact c.trans n

theorem Links.path {h h' : Heap α} (s : Links h h') {a b : Nat} (p : Path h a b) : Path h' a b := by
  induction p with
  | refl a => exact .refl a
  | step x _ ih => exact .step (s.points x) ih

theorem Links.endless {h h' : Heap α} (s : Links h h') {p : Ptr} (e : Endless h p) : Endless h' p := by
  obtain ⟨S, h1, h2⟩ := e
  exact ⟨S, h1, fun a ha => (h2 a ha).imp fun b hb => ⟨s.points hb.1, hb.2⟩⟩

theorem SameLinks.ends {h h' : Heap α} (s : SameLinks h h') {a : Nat} (e : Ends h a) : Ends h' a := by
  obtain ⟨nd, e1, e2⟩ := e
  obtain ⟨nd', h1, -, h3⟩ := s.some e1
  exact ⟨nd', h1, h3.trans e2⟩

theorem Points.inj {h : Heap α} {a b c : Nat} (p : Points h a b) (q : Points h a c) : b = c := by
  obtain ⟨n1, e1, x1⟩ := p
  obtain ⟨n2, e2, x2⟩ := q
  rw [e1] at e2
  cases e2
  rw [x1] at x2
  exact Option.some.inj x2

theorem Points.not_end {h : Heap α} {a b : Nat} (p : Points h a b) (q : Ends h a) : False := by
  obtain ⟨n1, e1, x1⟩ := p
  obtain ⟨n2, e2, x2⟩ := q
  rw [e1] at e2
  cases e2
  rw [x1] at x2
  cases x2

theorem Path.trans {h : Heap α} {a b c : Nat} (p : Path h a b) (q : Path h b c) : Path h a c := by
  induction p with
  | refl _ => exact q
  | step x _ ih => exact .step x (ih q)

/-- The way to the end passes through all nodes that can be reached. -/
theorem Path.toEnd {h : Heap α} {a e c : Nat} (p : Path h a e) (he : Ends h e) (q : Path h a c) : Path h c e := by
  induction q with
  | refl _ => exact p
  | step x _ ih =>
    cases p with
    | refl _ => exact (x.not_end he).elim
    | step y p => exact ih (x.inj y ▸ p)

/-! ### Loops over rings -/

/-- A loop over an endless list never ends. -/
theorem Endless.forEach {h : Heap α} {S : Nat → Prop} (hS : ∀ a, S a → ∃ b, Points h a b ∧ S b) : ∀ (f i a : Nat), S a → Heap.forEachLoop h f i a = .oof
  | 0, _, _, _ => rfl
  | f+1, i, a, ha => by
    obtain ⟨b, ⟨nd, e, n⟩, hb⟩ := hS a ha
    unfold Heap.forEachLoop
    rw [e]
    dsimp only
    rw [n]
    dsimp only
    rw [Endless.forEach hS f (i + 1) b hb]

theorem Endless.items {h : Heap α} {p : Ptr} (e : Endless h p) : Heap.forEach h p = .oof := by
  obtain ⟨S, ⟨a, rfl, ha⟩, hS⟩ := e
  exact Endless.forEach hS _ _ a ha

theorem setPos_same {h : Heap α} {a : Nat} {nd : Node α} (e : h[a]? = some nd) (pos : Int) : SameLinks h (h.set a { nd with pos := pos }) := by
  intro b
  by_cases hb : b = a
  · subst hb
    rw [List.getElem?_set_self (List.getElem?_eq_some_iff.1 e).1, e]
    rfl
  · rw [heap_set_ne hb]

/-- Neither does `Join` on it. -/
theorem Endless.joinLoop : ∀ (f : Nat) {h : Heap α} {last : Nat} {p : Ptr} {pos : Int}, Endless h p → Heap.joinLoop f h last p pos = .oof
  | 0, _, _, _, _, _ => rfl
  | f+1, h, last, p, pos, e => by
    obtain ⟨S, ⟨a, rfl, ha⟩, hS⟩ := e
    obtain ⟨b, ⟨nd, e, n⟩, hb⟩ := hS a ha
    unfold Heap.joinLoop
    rw [e]
    dsimp only
    exact Endless.joinLoop f ((setPos_same e pos).links.endless ⟨S, ⟨b, n, hb⟩, hS⟩)

/-! ### `Join` -/

theorem joinLoop_ret : ∀ {f : Nat} {h h' : Heap α} {last e : Nat} {p : Ptr} {pos : Int}, Heap.joinLoop f h last p pos = .ret (h', e) →
    SameLinks h h' ∧ (p = none → e = last) ∧ ∀ a, p = some a → Path h a e ∧ Ends h e
  | 0, _, _, _, _, _, _, r => by cases r
  | f+1, h, h', last, e, none, pos, r => by
    cases r
    exact ⟨.refl _, fun _ => rfl, fun _ h => by cases h⟩
  | f+1, h, h', last, e, some a, pos, r => by
    unfold Heap.joinLoop at r
    cases en : h[a]? with
    | none => rw [en] at r; cases r
    | some nd =>
      rw [en] at r
      dsimp only at r
      obtain ⟨s, h1, h2⟩ := joinLoop_ret r
      have s0 := setPos_same en pos
      refine ⟨s0.trans s, fun h => by (cases h), fun b hb => ?_⟩
      cases hb
      cases hx : nd.next with
      | none =>
        cases h1 hx
        exact ⟨.refl _, nd, en, hx⟩
      | some c =>
        obtain ⟨k1, k2⟩ := h2 c hx
        exact ⟨.step ⟨nd, en, hx⟩ (s0.symm.links.path k1), s0.symm.ends k2⟩

theorem join_ret {h h' : Heap α} {p q : Ptr} (r : Heap.join h p q = .ret h') :
    Links h h' ∧ ∀ a b, p = some a → q = some b → ∃ e, Path h a e ∧ Ends h e ∧ Points h' e b := by
  cases p with
  | none =>
    cases r
    exact ⟨.refl _, fun _ _ h => by cases h⟩
  | some a =>
    unfold Heap.join at r
    dsimp only at r
    split at r
    · rename_i n m _ _
      cases ej : Heap.joinLoop (h.length + 1) h a (some a) (n + m - 1) with
      | panic => rw [ej] at r; cases r
      | oof => rw [ej] at r; cases r
      | ret v =>
        obtain ⟨h1, last⟩ := v
        rw [ej] at r
        dsimp only at r
        obtain ⟨s, -, k⟩ := joinLoop_ret ej
        obtain ⟨k1, k2⟩ := k a rfl
        obtain ⟨nd, en, hn⟩ := s.ends k2
        rw [en] at r
        cases r
        have hl : last < h1.length := (List.getElem?_eq_some_iff.1 en).1
        refine ⟨s.links.trans fun b nb eb => ?_, fun a' b ha hb => ?_⟩
        · by_cases hbl : b = last
          · subst hbl
            rw [en] at eb
            cases eb
            exact ⟨_, List.getElem?_set_self hl, rfl, .inl hn⟩
          · exact ⟨nb, (heap_set_ne hbl).trans eb, rfl, .inr rfl⟩
        · cases ha
          exact ⟨last, k1, k2, _, List.getElem?_set_self hl, hb⟩
    · cases r

/-- After `Join` the other list can be reached from the first one. -/
theorem join_path {h h' : Heap α} {a b : Nat} (r : Heap.join h (some a) (some b) = .ret h') : Path h' a b := by
  obtain ⟨l, k⟩ := join_ret r
  obtain ⟨e, h1, -, h3⟩ := k a b rfl rfl
  exact (l.path h1).trans (.step h3 (.refl _))

/-- `Join` with a list that can be reached already makes a ring. -/
theorem join_ring {h h' : Heap α} {a b : Nat} (p : Path h a b) (r : Heap.join h (some a) (some b) = .ret h') : Endless h' (some a) := by
  obtain ⟨l, k⟩ := join_ret r
  obtain ⟨e, h1, h2, h3⟩ := k a b rfl rfl
  refine ⟨fun c => Path h a c, ⟨a, rfl, .refl _⟩, fun c hc => ?_⟩
  cases h1.toEnd h2 hc with
  | refl _ => exact ⟨b, h3, p⟩
  | step x y => exact ⟨_, l.points x, hc.trans (.step x (.refl _))⟩

/-- `Join` on an endless list never returns. -/
theorem join_endless {h : Heap α} {p q : Ptr} (e : Endless h p) (h' : Heap α) : Heap.join h p q ≠ .ret h' := by
  intro r
  obtain ⟨S, ⟨a, rfl, ha⟩, hS⟩ := e
  unfold Heap.join at r
  dsimp only at r
  split at r
  · rw [Endless.joinLoop _ ⟨S, ⟨a, rfl, ha⟩, hS⟩] at r
    cases r
  · cases r

/-! ### A kind of lists -/

/-- Neither variable is nil. -/
def NonNull (m : Mem α) (x y : Nat) : Prop := m.vars x ≠ none ∧ m.vars y ≠ none

/-- The second list can be reached from the first one. -/
def Linked (m : Mem α) (x y : Nat) : Prop := ∃ a b, m.vars x = some a ∧ m.vars y = some b ∧ Path m.heap a b

/-- The first list has become a ring. -/
def Ring (m : Mem α) (x _ : Nat) : Prop := Endless m.heap (m.vars x)

/-- No link and no item is lost; the variables of `E` are the same. -/
structure Kept (E : Nat → Prop) (m m' : Mem α) : Prop where
  vars : ∀ x, E x → m'.vars x = m.vars x
  heap : Links m.heap m'.heap

theorem Kept.refl (E : Nat → Prop) (m : Mem α) : Kept E m m := ⟨fun _ _ => rfl, .refl _⟩

theorem Kept.trans {E : Nat → Prop} {m m' m'' : Mem α} (s : Kept E m m') (t : Kept E m' m'') : Kept E m m'' :=
  ⟨fun x h => (t.vars x h).trans (s.vars x h), s.heap.trans t.heap⟩

theorem Kept.mono {E F : Nat → Prop} {m m' : Mem α} (s : Kept E m m') (h : ∀ x, F x → E x) : Kept F m m' := ⟨fun x hx => s.vars x (h x hx), s.heap⟩

theorem Kept.both {E : Nat → Prop} {m m' : Mem α} (s : Kept E m m') {x y : Nat} (hx : E x) (hy : E y) (h : NonNull m x y) : NonNull m' x y := by
  unfold NonNull
  rw [s.vars x hx, s.vars y hy]
  exact h

theorem Kept.linked {E : Nat → Prop} {m m' : Mem α} (s : Kept E m m') {x y : Nat} (hx : E x) (hy : E y) (h : Linked m x y) : Linked m' x y := by
  obtain ⟨a, b, h1, h2, h3⟩ := h
  exact ⟨a, b, (s.vars x hx).trans h1, (s.vars y hy).trans h2, s.heap.path h3⟩

theorem Kept.ring {E : Nat → Prop} {m m' : Mem α} (s : Kept E m m') {x y : Nat} (hx : E x) (h : Ring m x y) : Ring m' x y := by
  unfold Ring
  rw [s.vars x hx]
  exact s.heap.endless h

theorem joinVar_ret {m m' : Mem α} {x y : Nat} (r : m.joinVar x y = .ret m') :
    Kept (fun _ => True) m m' ∧ (NonNull m x y → Linked m' x y) ∧ (Linked m x y → Ring m' x y) ∧ ¬ Ring m x y := by
  unfold Mem.joinVar at r
  cases ej : Heap.join m.heap (m.vars x) (m.vars y) with
  | panic => rw [ej] at r; cases r
  | oof => rw [ej] at r; cases r
  | ret h =>
    rw [ej] at r
    cases r
    refine ⟨⟨fun _ _ => rfl, (join_ret ej).1⟩, fun hb => ?_, fun hl => ?_, fun hr => join_endless hr _ ej⟩
    · obtain ⟨h1, h2⟩ := hb
      obtain ⟨a, ha⟩ := Option.ne_none_iff_exists'.1 h1
      obtain ⟨b, hb⟩ := Option.ne_none_iff_exists'.1 h2
      rw [ha, hb] at ej
      exact ⟨a, b, ha, hb, join_path ej⟩
    · obtain ⟨a, b, ha, hb, p⟩ := hl
      rw [ha, hb] at ej
      show Endless h (m.vars x)
      rw [ha]
      exact join_ring p ej

theorem Ring.items {m : Mem α} {x y : Nat} (h : Ring m x y) (l : List α) : m.items x ≠ .ret l := by
  intro r
  unfold Mem.items at r
  rw [Endless.items h] at r
  cases r

end

/-! ### Extensions -/

/-- `R` holds for one of the pairs of lists that an extension of kind `k` in struct `e` makes `mergeTypeExtensions` join for the type struct `t`. -/
def JoinsType (R : ∀ {α : Type}, Mem α → Nat → Nat → Prop) (k : TypeKind) (m : PMem) (t e : Nat) : Prop :=
  R m.dirs (2 * t) (2 * e) ∨ match k with
    | .object => R m.fields t e ∨ R m.tys (2 * t) (2 * e)
    | .interface => R m.fields t e
    | .union => R m.tys (2 * t + 1) (2 * e + 1)
    | .enum => R m.values t e
    | .inputObject => R m.inputs t e
    | .scalar => False

/-- The same for the extension of the schema definition in struct `e`. -/
def JoinsSchema (R : ∀ {α : Type}, Mem α → Nat → Nat → Prop) (m : PMem) (b e : Nat) : Prop := R m.dirs (2 * b + 1) (2 * e + 1) ∨ R m.ops b e

/-- Nothing that concerns types is lost. -/
structure KeptTypes (m m' : PMem) : Prop where
  heads : m'.heads = m.heads
  dirs : Kept (fun x => x % 2 = 0) m.dirs m'.dirs
  fields : Kept (fun _ => True) m.fields m'.fields
  tys : Kept (fun _ => True) m.tys m'.tys
  values : Kept (fun _ => True) m.values m'.values
  inputs : Kept (fun _ => True) m.inputs m'.inputs

/-- Nothing that concerns schema structs is lost. -/
structure KeptSchemas (m m' : PMem) : Prop where
  dirs : Kept (fun _ => True) m.dirs m'.dirs
  ops : Kept (fun _ => True) m.ops m'.ops

theorem KeptTypes.refl (m : PMem) : KeptTypes m m := ⟨rfl, .refl _ _, .refl _ _, .refl _ _, .refl _ _, .refl _ _⟩
theorem KeptTypes.trans {m m' m'' : PMem} (s : KeptTypes m m') (t : KeptTypes m' m'') : KeptTypes m m'' :=
  ⟨t.heads.trans s.heads, s.dirs.trans t.dirs, s.fields.trans t.fields, s.tys.trans t.tys, s.values.trans t.values, s.inputs.trans t.inputs⟩
theorem KeptSchemas.refl (m : PMem) : KeptSchemas m m := ⟨.refl _ _, .refl _ _⟩
theorem KeptSchemas.trans {m m' m'' : PMem} (s : KeptSchemas m m') (t : KeptSchemas m' m'') : KeptSchemas m m'' :=
  ⟨s.dirs.trans t.dirs, s.ops.trans t.ops⟩

theorem KeptTypes.joins {m m' : PMem} (s : KeptTypes m m') {R : ∀ {α : Type}, Mem α → Nat → Nat → Prop}
    (hR : ∀ {α : Type} {E : Nat → Prop} {m m' : Mem α}, Kept E m m' → ∀ {x y : Nat}, E x → E y → R m x y → R m' x y) {k : TypeKind} {t e : Nat}
    (h : JoinsType R k m t e) : JoinsType R k m' t e := by
  refine h.imp (hR s.dirs (by omega) (by omega)) fun h => ?_
  cases k with
  | scalar => exact h
  | object => exact h.imp (hR s.fields trivial trivial) (hR s.tys trivial trivial)
  | interface => exact hR s.fields trivial trivial h
  | union => exact hR s.tys trivial trivial h
  | enum => exact hR s.values trivial trivial h
  | inputObject => exact hR s.inputs trivial trivial h

theorem KeptSchemas.joins {m m' : PMem} (s : KeptSchemas m m') {R : ∀ {α : Type}, Mem α → Nat → Nat → Prop}
    (hR : ∀ {α : Type} {E : Nat → Prop} {m m' : Mem α}, Kept E m m' → ∀ {x y : Nat}, E x → E y → R m x y → R m' x y) {b e : Nat}
    (h : JoinsSchema R m b e) : JoinsSchema R m' b e := h.imp (hR s.dirs trivial trivial) (hR s.ops trivial trivial)

theorem bind_ret_inv {σ τ : Type} {o : Out σ} {f : σ → Out τ} {r : τ} (h : o.bind f = .ret r) : ∃ v, o = .ret v ∧ f v = .ret r := by
  cases o with
  | ret v => exact ⟨v, rfl, h⟩
  | panic => cases h
  | oof => cases h

theorem mergeTypeExt_ret {m m' : PMem} {t e : Nat} (r : m.mergeTypeExt t e = .ret m') : ∃ h, m.heads[e]? = some h ∧ KeptTypes m m' ∧ KeptSchemas m m' ∧
    (JoinsType NonNull h.kind m t e → JoinsType Linked h.kind m' t e) ∧ (JoinsType Linked h.kind m t e → JoinsType Ring h.kind m' t e) ∧
    ¬ JoinsType Ring h.kind m t e := by
  unfold PMem.mergeTypeExt at r
  split at r
  · cases r
  · rename_i h hh
    obtain ⟨dirs, e1, r⟩ := bind_ret_inv r
    obtain ⟨k1, b1, l1, n1⟩ := joinVar_ret e1
    have k1' : Kept (fun x => x % 2 = 0) m.dirs dirs := k1.mono fun _ _ => trivial
    refine ⟨h, hh, ?_⟩
    dsimp only at r
    unfold JoinsType
    split at r <;> rename_i hk <;> rw [hk]
    · obtain ⟨fields, e2, r⟩ := bind_ret_inv r
      obtain ⟨tys, e3, r⟩ := bind_ret_inv r
      obtain ⟨k2, b2, l2, n2⟩ := joinVar_ret e2
      obtain ⟨k3, b3, l3, n3⟩ := joinVar_ret e3
      cases r
      exact ⟨⟨rfl, k1', k2, k3, .refl _ _, .refl _ _⟩, ⟨k1, .refl _ _⟩, Or.imp b1 (Or.imp b2 b3), Or.imp l1 (Or.imp l2 l3),
        not_or.2 ⟨n1, not_or.2 ⟨n2, n3⟩⟩⟩
    · obtain ⟨fields, e2, r⟩ := bind_ret_inv r
      obtain ⟨k2, b2, l2, n2⟩ := joinVar_ret e2
      cases r
      exact ⟨⟨rfl, k1', k2, .refl _ _, .refl _ _, .refl _ _⟩, ⟨k1, .refl _ _⟩, Or.imp b1 b2, Or.imp l1 l2, not_or.2 ⟨n1, n2⟩⟩
    · obtain ⟨tys, e2, r⟩ := bind_ret_inv r
      obtain ⟨k2, b2, l2, n2⟩ := joinVar_ret e2
      cases r
      exact ⟨⟨rfl, k1', .refl _ _, k2, .refl _ _, .refl _ _⟩, ⟨k1, .refl _ _⟩, Or.imp b1 b2, Or.imp l1 l2, not_or.2 ⟨n1, n2⟩⟩
    · obtain ⟨v, e2, r⟩ := bind_ret_inv r
      obtain ⟨k2, b2, l2, n2⟩ := joinVar_ret e2
      cases r
      exact ⟨⟨rfl, k1', .refl _ _, .refl _ _, k2, .refl _ _⟩, ⟨k1, .refl _ _⟩, Or.imp b1 b2, Or.imp l1 l2, not_or.2 ⟨n1, n2⟩⟩
    · obtain ⟨v, e2, r⟩ := bind_ret_inv r
      obtain ⟨k2, b2, l2, n2⟩ := joinVar_ret e2
      cases r
      exact ⟨⟨rfl, k1', .refl _ _, .refl _ _, .refl _ _, k2⟩, ⟨k1, .refl _ _⟩, Or.imp b1 b2, Or.imp l1 l2, not_or.2 ⟨n1, n2⟩⟩
    · cases r
      exact ⟨⟨rfl, k1', .refl _ _, .refl _ _, .refl _ _, .refl _ _⟩, ⟨k1, .refl _ _⟩, Or.imp b1 id, Or.imp l1 id, not_or.2 ⟨n1, id⟩⟩

theorem both_kept {α : Type} {E : Nat → Prop} {m m' : Mem α} (s : Kept E m m') {x y : Nat} (hx : E x) (hy : E y) (h : NonNull m x y) : NonNull m' x y := s.both hx hy h
theorem linked_kept {α : Type} {E : Nat → Prop} {m m' : Mem α} (s : Kept E m m') {x y : Nat} (hx : E x) (hy : E y) (h : Linked m x y) : Linked m' x y :=
  s.linked hx hy h
theorem ring_kept {α : Type} {E : Nat → Prop} {m m' : Mem α} (s : Kept E m m') {x y : Nat} (hx : E x) (_ : E y) (h : Ring m x y) : Ring m' x y := s.ring hx h

/-- What merging makes of a pair of a type struct and an extension: two lists become linked, and linked lists become a ring. -/
def Merged (m m' : PMem) (t e : Nat) : Prop := ∀ h, m.heads[e]? = some h →
  (JoinsType NonNull h.kind m t e → JoinsType Linked h.kind m' t e) ∧ (JoinsType Linked h.kind m t e → JoinsType Ring h.kind m' t e) ∧
    ¬ JoinsType Ring h.kind m t e

theorem Merged.after {m m1 m' : PMem} {t e : Nat} (k : KeptTypes m m1) (h : Merged m1 m' t e) : Merged m m' t e := fun hd hh => by
  obtain ⟨h1, h2, h3⟩ := h hd (by rw [k.heads]; exact hh)
  exact ⟨fun x => h1 (k.joins both_kept x), fun x => h2 (k.joins linked_kept x), fun x => h3 (k.joins ring_kept x)⟩

theorem Merged.before {m m1 m' : PMem} {t e : Nat} (k : KeptTypes m1 m') (h : Merged m m1 t e) : Merged m m' t e := fun hd hh => by
  obtain ⟨h1, h2, h3⟩ := h hd hh
  exact ⟨fun x => k.joins linked_kept (h1 x), fun x => k.joins ring_kept (h2 x), h3⟩

theorem mergeInto_ret {t : Nat} : ∀ {es : List Nat} {m m' : PMem}, m.mergeInto t es = .ret m' → KeptTypes m m' ∧ KeptSchemas m m' ∧ ∀ e ∈ es, Merged m m' t e
  | [], m, m', r => by
    cases r
    exact ⟨.refl _, .refl _, by simp⟩
  | e :: es, m, m', r => by
    unfold PMem.mergeInto at r
    obtain ⟨m1, e1, r⟩ := bind_ret_inv r
    obtain ⟨h, hh, k1, s1, b1⟩ := mergeTypeExt_ret e1
    obtain ⟨k2, s2, b2⟩ := mergeInto_ret r
    refine ⟨k1.trans k2, s1.trans s2, fun x hx => ?_⟩
    rcases List.mem_cons.1 hx with rfl | hx
    · refine Merged.before (m1 := m1) k2 fun h' hh' => ?_
      rw [hh] at hh'
      cases hh'
      exact b1
    · exact (b2 x hx).after k1

theorem mergeTypeExts_ret {sch : PSchema} {q : PSDL} : ∀ {l : List (Bytes × List Nat)} {m m' : PMem}, (∀ p ∈ l, mergeTarget sch q p.1 ≠ none) →
    PMem.mergeTypeExts sch q l m = .ret m' →
    KeptTypes m m' ∧ KeptSchemas m m' ∧ ∀ p ∈ l, ∀ e ∈ p.2, ∀ t, mergeTarget sch q p.1 = some t → Merged m m' t e
  | [], m, m', _, r => by
    cases r
    exact ⟨.refl _, .refl _, by simp⟩
  | (n, es) :: l, m, m', ht, r => by
    unfold PMem.mergeTypeExts at r
    split at r
    · rename_i t htt
      obtain ⟨m1, e1, r⟩ := bind_ret_inv r
      obtain ⟨k1, s1, b1⟩ := mergeInto_ret e1
      obtain ⟨k2, s2, b2⟩ := mergeTypeExts_ret (fun p hp => ht p (by simp [hp])) r
      refine ⟨k1.trans k2, s1.trans s2, fun p hp e he t' ht' => ?_⟩
      rcases List.mem_cons.1 hp with rfl | hp
      · rw [htt] at ht'
        cases ht'
        exact (b1 e he).before k2
      · exact (b2 p hp e he t' ht').after k1
    · rename_i hn
      exact absurd hn (ht (n, es) (by simp))

theorem mergeSchemaExts_ret {b : Nat} : ∀ {es : List Nat} {m m' : PMem}, m.mergeSchemaExts b es = .ret m' → KeptTypes m m' ∧ KeptSchemas m m' ∧
    ∀ e ∈ es, (JoinsSchema NonNull m b e → JoinsSchema Linked m' b e) ∧ (JoinsSchema Linked m b e → JoinsSchema Ring m' b e) ∧ ¬ JoinsSchema Ring m b e
  | [], m, m', r => by
    cases r
    exact ⟨.refl _, .refl _, by simp⟩
  | e :: es, m, m', r => by
    unfold PMem.mergeSchemaExts at r
    obtain ⟨dirs, e1, r⟩ := bind_ret_inv r
    obtain ⟨ops, e2, r⟩ := bind_ret_inv r
    obtain ⟨k1, b1, l1, n1⟩ := joinVar_ret e1
    obtain ⟨k2, b2, l2, n2⟩ := joinVar_ret e2
    obtain ⟨k3, s3, b3⟩ := mergeSchemaExts_ret r
    have k : KeptTypes m { m with dirs := dirs, ops := ops } := ⟨rfl, k1.mono fun _ _ => trivial, .refl _ _, .refl _ _, .refl _ _, .refl _ _⟩
    have s : KeptSchemas m { m with dirs := dirs, ops := ops } := ⟨k1, k2⟩
    refine ⟨k.trans k3, s.trans s3, fun x hx => ?_⟩
    rcases List.mem_cons.1 hx with rfl | hx
    · exact ⟨fun h => s3.joins linked_kept (Or.imp b1 b2 h), fun h => s3.joins ring_kept (Or.imp l1 l2 h), not_or.2 ⟨n1, n2⟩⟩
    · obtain ⟨h1, h2, h3⟩ := b3 x hx
      exact ⟨fun h => h1 (s.joins both_kept h), fun h => h2 (s.joins linked_kept h), fun h => h3 (s.joins ring_kept h)⟩

theorem mergeSchemaExtensions_ret {m m' : PMem} {q : PSDL} (r : m.mergeSchemaExtensions q = .ret m') : KeptTypes m m' ∧ KeptSchemas m m' ∧
    ∀ b, q.schemaDef = some b → ∀ e ∈ q.schemaExts, (JoinsSchema NonNull m b e → JoinsSchema Linked m' b e) ∧
      (JoinsSchema Linked m b e → JoinsSchema Ring m' b e) ∧ ¬ JoinsSchema Ring m b e := by
  unfold PMem.mergeSchemaExtensions at r
  split at r
  · rename_i hn
    cases r
    exact ⟨.refl _, .refl _, fun b hb => by rw [hn] at hb; cases hb⟩
  · rename_i b hb
    obtain ⟨k, s, h⟩ := mergeSchemaExts_ret r
    refine ⟨k, s, fun b' hb' => ?_⟩
    rw [hb] at hb'
    cases hb'
    exact h

theorem make_kept {α : Type} {m m' : Mem α} {x : Nat} {l : List α} (r : m.make x l = .ret m') : Kept (fun y => y ≠ x) m m' := by
  unfold Mem.make at r
  obtain ⟨⟨h, p⟩, e1, r⟩ := bind_ret_inv r
  cases r
  obtain ⟨h', p', ns, e2, -, -, hf, -⟩ := fromSlice_eq m.heap l
  rw [e1] at e2
  cases e2
  refine ⟨fun y hy => if_neg hy, fun a nd e => ⟨nd, ?_, rfl, .inr rfl⟩⟩
  exact (hf a (List.getElem?_eq_some_iff.1 e).1).trans e

theorem allocSchemaDef_kept {m m' : PMem} {d : SchemaDef} {b : Nat} (r : m.allocSchemaDef d = .ret (m', b)) : KeptTypes m m' := by
  unfold PMem.allocSchemaDef at r
  obtain ⟨dirs, e1, r⟩ := bind_ret_inv r
  obtain ⟨ops, e2, r⟩ := bind_ret_inv r
  cases r
  exact ⟨rfl, (make_kept e1).mono (by intro x hx; omega), .refl _ _, .refl _ _, .refl _ _, .refl _ _⟩

theorem buildSchemaDefinition_ret {m m' : PMem} {sch S : PSchema} {q : PSDL} (r : m.buildSchemaDefinition sch q = .ret (m', S)) : KeptTypes m m' ∧
    ∀ b, q.schemaDef = some b → m' = m ∧ S.definition = some b ∧ ∃ l, m.ops.items b = .ret l := by
  unfold PMem.buildSchemaDefinition at r
  obtain ⟨⟨m1, b⟩, e1, r⟩ := bind_ret_inv r
  obtain ⟨l, e2, r⟩ := bind_ret_inv r
  cases r
  split at e1
  · rename_i b' hb
    cases e1
    refine ⟨.refl _, fun b' hb' => ?_⟩
    rw [hb] at hb'
    cases hb'
    exact ⟨rfl, rfl, l, e2⟩
  · rename_i hn
    exact ⟨allocSchemaDef_kept e1, fun b' hb' => by rw [hn] at hb'; cases hb'⟩

/-! ### Reading -/

theorem JoinsType.unreadable {k : TypeKind} {m : PMem} {t e : Nat} (h : JoinsType Ring k m t e) (d : TypeDef) : m.readType t ≠ .ret d := by
  intro r
  unfold PMem.readType at r
  split at r
  · cases r
  · obtain ⟨dirs, e1, r⟩ := bind_ret_inv r
    obtain ⟨fields, e2, r⟩ := bind_ret_inv r
    obtain ⟨ifaces, e3, r⟩ := bind_ret_inv r
    obtain ⟨members, e4, r⟩ := bind_ret_inv r
    obtain ⟨values, e5, r⟩ := bind_ret_inv r
    obtain ⟨inputs, e6, r⟩ := bind_ret_inv r
    rcases h with h | h
    · exact h.items _ e1
    · cases k with
      | scalar => exact h
      | object =>
        rcases h with h | h
        · exact h.items _ e2
        · exact h.items _ e3
      | interface => exact h.items _ e2
      | union => exact h.items _ e4
      | enum => exact h.items _ e5
      | inputObject => exact h.items _ e6

theorem readTypes_mem {m : PMem} : ∀ {l : GMap Nat} {ts : GMap TypeDef}, m.readTypes l = .ret ts → ∀ p ∈ l, ∃ d, m.readType p.2 = .ret d
  | [], _, _, p, hp => by cases hp
  | (n, a) :: l, ts, r, p, hp => by
    unfold PMem.readTypes at r
    obtain ⟨t, e1, r⟩ := bind_ret_inv r
    obtain ⟨ts', e2, r⟩ := bind_ret_inv r
    rcases List.mem_cons.1 hp with rfl | hp
    · exact ⟨t, e1⟩
    · exact readTypes_mem e2 p hp

theorem readSchema_parts {m : PMem} {S : PSchema} {v : Schema} (r : m.readSchema S = .ret v) : (∀ p ∈ S.types, ∃ d, m.readType p.2 = .ret d) ∧
    ∀ b, S.definition = some b → (∃ l, m.dirs.items (2 * b + 1) = .ret l) ∧ ∃ l, m.ops.items b = .ret l := by
  unfold PMem.readSchema at r
  obtain ⟨d, e1, r⟩ := bind_ret_inv r
  obtain ⟨ts, e2, r⟩ := bind_ret_inv r
  refine ⟨readTypes_mem e2, fun b hb => ?_⟩
  rw [hb] at e1
  unfold PMem.readDefinition at e1
  obtain ⟨x, e1, -⟩ := bind_ret_inv e1
  unfold PMem.readSchemaDef at e1
  obtain ⟨x1, e1, r1⟩ := bind_ret_inv e1
  obtain ⟨x2, e2, -⟩ := bind_ret_inv r1
  exact ⟨⟨x1, e1⟩, x2, e2⟩

end GQL
