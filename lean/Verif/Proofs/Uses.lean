/-
The fragments and variables that `NewContext` records, in terms of the definitions of the document.
-/
import Verif.Proofs.Decorate
import Verif.Proofs.Kinds
import Verif.Spec.Fragments
import Verif.Proofs.RulesWalk

namespace GQL
open Spec (Tree nodesAll traceAll group)

/-- Each definition with the executable definition its variables are counted for. -/
def charged : Option Nat → List (Definition × Nat) → List (Option Nat × Definition)
  | _, [] => []
  | cur, (d, i) :: ds =>
    let cur' := if d.isExecutable then some i else cur
    (cur', d) :: charged cur' ds

theorem tagged_const : ∀ (ns : List ANode) (cur : Option Nat), (∀ n ∈ ns, n.kind ≠ .executableDefinition) →
    tagged cur ns = ns.map (Prod.mk cur) ∧ curAfter cur ns = cur
  | [], _, _ => ⟨rfl, rfl⟩
  | n :: ns, cur, h => by
    have hn : curAt cur n = cur := by
      have := h n (by simp)
      cases n <;> first | rfl | exact absurd rfl this
    obtain ⟨h1, h2⟩ := tagged_const ns cur fun m hm => h m (by simp [hm])
    refine ⟨?_, ?_⟩
    · simp only [tagged, hn, h1, List.map_cons]
    · unfold curAfter at h2 ⊢
      rw [List.foldl_cons, hn, h2]

theorem inner_not_exec (d : Definition) : ∀ n ∈ nodesAll (innerTrees false d), n.kind ≠ .executableDefinition := by
  intro n hn he
  have := innerTrees_kinds_all false d n hn
  rw [he] at this
  exact absurd this (by decide)

theorem topNodes_kind (i : Nat) (d : Definition) : ∀ n ∈ topNodes i d, n.kind ∉ innerKinds := by
  obtain ⟨loc, b⟩ := d
  intro n hn
  cases b with
  | op o =>
    obtain ⟨k, _, _, _, _⟩ := o
    cases k <;> simp [topNodes, opKindNode] at hn <;> rcases hn with rfl | rfl | rfl | rfl <;> simp only [ANode.kind] <;> decide
  | type t =>
    obtain ⟨_, _, k, _, _, _, _, _, _⟩ := t
    cases k <;> simp [topNodes, typeDefKindNode] at hn <;> rcases hn with rfl | rfl | rfl | rfl <;> simp only [ANode.kind] <;> decide
  | typeExt t =>
    obtain ⟨_, _, k, _, _, _, _, _, _⟩ := t
    cases k <;> simp [topNodes, typeExtKindNode] at hn <;> rcases hn with rfl | rfl | rfl | rfl <;> simp only [ANode.kind] <;> decide
  | _ => simp [topNodes] at hn; rcases hn with rfl | rfl | rfl <;> simp only [ANode.kind] <;> decide

/-- The current definition after the top nodes, and the inner nodes that are tagged there. -/
theorem topNodes_cur (i : Nat) (d : Definition) (cur : Option Nat) :
    curAfter cur (topNodes i d) = if d.isExecutable then some i else cur := by
  obtain ⟨loc, b⟩ := d
  cases b with
  | op o => obtain ⟨k, _, _, _, _⟩ := o; cases k <;> rfl
  | type t => obtain ⟨_, _, k, _, _, _, _, _, _⟩ := t; cases k <;> rfl
  | typeExt t => obtain ⟨_, _, k, _, _, _, _, _, _⟩ := t; cases k <;> rfl
  | _ => rfl

theorem mem_tagged {k : Option Nat} {n : ANode} : ∀ {ns : List ANode} {cur : Option Nat}, (k, n) ∈ tagged cur ns → n ∈ ns
  | [], _, h => by cases h
  | m :: ns, cur, h => by
    simp only [tagged, List.mem_cons, Prod.mk.injEq] at h
    rcases h with ⟨_, rfl⟩ | h
    · simp
    · exact List.mem_cons_of_mem _ (mem_tagged h)

theorem tagged_defs (k : Option Nat) (n : ANode) (hn : n.kind ∈ innerKinds) : ∀ (ds : List (Definition × Nat)) (cur : Option Nat),
    (k, n) ∈ tagged cur (ds.flatMap fun p => topNodes p.2 p.1 ++ nodesAll (innerTrees false p.1)) ↔
      ∃ d, (k, d) ∈ charged cur ds ∧ n ∈ nodesAll (innerTrees false d)
  | [], cur => by simp [tagged, charged]
  | (d, i) :: ds, cur => by
    obtain ⟨h1, h2⟩ := tagged_const _ (if d.isExecutable then some i else cur) (inner_not_exec d)
    simp only [List.flatMap_cons, List.append_assoc, tagged_append, List.mem_append, topNodes_cur, h1, h2, charged, List.mem_cons,
      List.mem_map, Prod.mk.injEq, tagged_defs k n hn ds]
    have h3 : ∀ cur, ¬ (k, n) ∈ tagged cur (topNodes i d) := fun cur hm => topNodes_kind i d n (mem_tagged hm) hn
    constructor
    · rintro (h | ⟨m, hm, rfl, rfl⟩ | ⟨d', h, h'⟩)
      · exact absurd h (h3 _)
      · exact ⟨d, .inl ⟨rfl, rfl⟩, hm⟩
      · exact ⟨d', .inr h, h'⟩
    · rintro ⟨d', ⟨rfl, rfl⟩ | h, h'⟩
      · exact .inr (.inl ⟨n, h', rfl, rfl⟩)
      · exact .inr (.inr ⟨d', h, h'⟩)

theorem tagged_doc (doc : Document) (k : Option Nat) (n : ANode) (hn : n.kind ∈ innerKinds) :
    (k, n) ∈ tagged none (Spec.docTree false doc).nodes ↔ ∃ d, (k, d) ∈ charged none doc.defs.zipIdx ∧ n ∈ nodesAll (innerTrees false d) := by
  rw [docTree_nodes, tagged_append, List.mem_append, ← tagged_defs k n hn]
  have h1 : curAfter none (.document doc :: if doc.defs.isEmpty then [] else [.definitions doc.defs]) = none := by split <;> rfl
  rw [h1]
  refine or_iff_right fun h => ?_
  have := mem_tagged h
  split at this
  · simp only [List.mem_cons, List.not_mem_nil, or_false] at this
    subst this; simp only [ANode.kind] at hn; exact absurd hn (by decide)
  · simp only [List.mem_cons, List.not_mem_nil, or_false] at this
    rcases this with rfl | rfl <;> simp only [ANode.kind] at hn <;> exact absurd hn (by decide)

theorem inner_defNodes (d : Definition) (n : ANode) (hn : n.kind ∈ innerKinds) : n ∈ nodesAll (innerTrees false d) ↔ n ∈ Spec.defNodes d := by
  unfold Spec.defNodes
  rw [← (Spec.defTree_perm 0 d).mem_iff, defTree_nodes, List.mem_append]
  exact (or_iff_right fun h => topNodes_kind 0 d n h hn).symm

theorem charged_after : ∀ (ds : List Definition) (o i : Nat) (d : Definition), i < o →
    ((some i, d) ∈ charged (some i) (ds.zipIdx o) ↔ d ∈ ds.takeWhile fun x => !x.isExecutable) ∧
    ∀ cur, cur ≠ some i → (some i, d) ∉ charged cur (ds.zipIdx o)
  | [], _, _, _, _ => by simp [charged]
  | x :: ds, o, i, d, h => by
    obtain ⟨h1, h2⟩ := charged_after ds (o + 1) i d (by omega)
    have ho : ¬ i = o := by omega
    simp only [List.zipIdx_cons, charged, List.takeWhile_cons]
    cases hx : x.isExecutable
    · simp only [Bool.false_eq_true, ↓reduceIte, Bool.not_false, List.mem_cons, Prod.mk.injEq, true_and, h1, true_and]
      intro cur hc
      rintro (⟨h, _⟩ | h)
      · exact hc h.symm
      · exact h2 cur hc h
    · simp only [↓reduceIte, List.mem_cons, Prod.mk.injEq, Option.some.injEq, ho, false_and, false_or, Bool.not_true, Bool.false_eq_true,
        List.not_mem_nil, iff_false]
      have := h2 (some o) (by simpa using fun e : o = i => ho e.symm)
      exact ⟨this, fun _ _ => this⟩

/-- The definitions counted for definition `i`: itself, and the definitions of the type system directly after it. -/
theorem charged_some : ∀ (ds : List Definition) (o i : Nat) (cur : Option Nat) (d : Definition), o ≤ i → cur ≠ some i →
    ((some i, d) ∈ charged cur (ds.zipIdx o) ↔
      ∃ x rest, ds.drop (i - o) = x :: rest ∧ x.isExecutable = true ∧ d ∈ x :: rest.takeWhile fun x => !x.isExecutable)
  | [], o, i, cur, d, _, _ => by simp [charged]
  | x :: ds, o, i, cur, d, hi, hc => by
    simp only [List.zipIdx_cons, charged, List.mem_cons, Prod.mk.injEq]
    by_cases ho : i = o
    · subst ho
      obtain ⟨h1, h2⟩ := charged_after ds (i + 1) i d (by omega)
      simp only [Nat.sub_self, List.drop_zero, List.cons.injEq]
      cases hx : x.isExecutable
      · have := h2 cur hc
        simp only [Bool.false_eq_true, ↓reduceIte]
        constructor
        · rintro (⟨h, _⟩ | h)
          · exact absurd h.symm hc
          · exact absurd h this
        · rintro ⟨y, r, ⟨rfl, rfl⟩, h, _⟩
          rw [hx] at h; cases h
      · simp only [↓reduceIte, true_and, h1]
        constructor
        · intro h; exact ⟨x, ds, ⟨rfl, rfl⟩, hx, h⟩
        · rintro ⟨y, r, ⟨rfl, rfl⟩, _, h⟩; exact h
    · have hs : i - o = (i - (o + 1)) + 1 := by omega
      have hne : ∀ c', (c' = some o ∨ c' = cur) → c' ≠ some i := by
        rintro c' (rfl | rfl)
        · simpa using fun e : o = i => ho e.symm
        · exact hc
      have hcc : (if x.isExecutable then some o else cur) ≠ some i := hne _ (by split <;> simp)
      rw [charged_some ds (o + 1) i _ d (by omega) hcc, hs, List.drop_succ_cons]
      simp only [List.mem_cons]
      refine or_iff_right ?_
      rintro ⟨h, _⟩
      exact hcc h.symm

/-! ### The context of a query document -/

/-- The context `NewContext` returns. -/
def queryCtx (doc : Document) (schema : Option Schema) : Ctx := (Spec.docTree false doc).nodes.foldl decorate (emptyCtx doc schema)

theorem newContext_ret (doc : Document) (schema : Option Schema) : newContext doc schema = .ret (queryCtx doc schema) := newContext_eq doc schema

section
variable (doc : Document) (schema : Option Schema)

theorem queryCtx_doc : (queryCtx doc schema).doc = doc := (decorates_spec _ _).1
theorem queryCtx_schema : (queryCtx doc schema).schema = schema.getD {} := (decorates_spec _ _).2.1
theorem queryCtx_errors : (queryCtx doc schema).errors = [] := (decorates_spec _ _).2.2.1
theorem queryCtx_sdl : (queryCtx doc schema).sdl = none := (decorates_spec _ _).2.2.2.1
theorem queryCtx_operations : (queryCtx doc schema).operations = [] := (decorates_spec _ _).2.2.2.2.1

theorem queryCtx_tagged (k j) : j ∈ (queryCtx doc schema).referencedFragments k ↔
    ∃ name ds, (k, .fragmentSpreadSelection (.spread name ds)) ∈ tagged none (Spec.docTree false doc).nodes ∧ isFrag doc j name := by
  rw [queryCtx, (decorates_spec _ _).2.2.2.2.2.1 k j]
  refine or_iff_right ?_
  simp [Ctx.referencedFragments, emptyCtx]

theorem mem_charged : ∀ (ds : List (Definition × Nat)) (cur k : Option Nat) (d : Definition), (k, d) ∈ charged cur ds →
    (∃ i, (d, i) ∈ ds ∧ d.isExecutable = true ∧ k = some i) ∨ d.isExecutable = false
  | [], _, _, _, h => by cases h
  | (x, i) :: ds, cur, k, d, h => by
    simp only [charged, List.mem_cons, Prod.mk.injEq] at h
    rcases h with ⟨rfl, rfl⟩ | h
    · cases hx : d.isExecutable
      · exact .inr rfl
      · exact .inl ⟨i, by simp, rfl, by simp⟩
    · rcases mem_charged ds _ k d h with ⟨j, h1, h2⟩ | h
      · exact .inl ⟨j, by simp [h1], h2⟩
      · exact .inr h

theorem charged_self : ∀ (ds : List (Definition × Nat)) (cur : Option Nat) (d : Definition) (i : Nat), (d, i) ∈ ds → d.isExecutable = true →
    (some i, d) ∈ charged cur ds
  | (x, j) :: ds, cur, d, i, h, he => by
    simp only [charged, List.mem_cons, Prod.mk.injEq]
    rcases List.mem_cons.1 h with h | h
    · cases h; exact .inl ⟨by simp [he], rfl⟩
    · exact .inr (charged_self ds _ d i h he)

theorem sdl_no_spread {d : Definition} (h : d.isExecutable = false) {n : ANode} (hk : n.kind = .fragmentSpreadSelection) :
    n ∉ nodesAll (innerTrees false d) := by
  intro hn
  have := innerTrees_kinds false d
  obtain ⟨loc, b⟩ := d
  cases b <;> first | (cases h; done) | (have := this n hn; rw [hk] at this; exact absurd this (by decide))

/-- The edges of the fragment graph. -/
theorem queryCtx_refs (k : Option Nat) (j : Nat) : j ∈ (queryCtx doc schema).referencedFragments k ↔
    ∃ i d d', k = some i ∧ doc.defs[i]? = some d ∧ doc.defs[j]? = some d' ∧ ∃ name, Spec.Spreads d name ∧ Spec.IsFragment d' name := by
  rw [queryCtx_tagged]
  have hk : ∀ name ds, (ANode.fragmentSpreadSelection (.spread name ds)).kind ∈ innerKinds := fun _ _ => by simp only [ANode.kind]; decide
  constructor
  · rintro ⟨name, ds, ht, d', f, h1, h2, h3⟩
    obtain ⟨d, hc, hn⟩ := (tagged_doc doc k _ (hk name ds)).1 ht
    rcases mem_charged _ _ _ _ hc with ⟨i, hi, he, rfl⟩ | he
    · exact ⟨i, d, d', rfl, List.mem_zipIdx_iff_getElem?.1 hi, h1, name, ⟨ds, (inner_defNodes d _ (hk name ds)).1 hn⟩, f, h2, h3⟩
    · exact absurd hn (sdl_no_spread he rfl)
  · rintro ⟨i, d, d', rfl, h1, h2, name, ⟨ds, hs⟩, f, h3, h4⟩
    have hn := (inner_defNodes d _ (hk name ds)).2 hs
    have he : d.isExecutable = true := by
      cases he : d.isExecutable
      · exact absurd hn (sdl_no_spread he rfl)
      · rfl
    exact ⟨name, ds, (tagged_doc doc _ _ (hk name ds)).2 ⟨d, charged_self _ _ d i (List.mem_zipIdx_iff_getElem?.2 h1) he, hn⟩, d', f, h2, h3, h4⟩

/-- The variables counted for definition `i`. -/
theorem queryCtx_usages (i : Nat) (x : Bytes) : x ∈ (queryCtx doc schema).variableUsages (some i) ↔
    ∃ d0 rest d, doc.defs.drop i = d0 :: rest ∧ d0.isExecutable = true ∧ (d ∈ d0 :: rest.takeWhile fun x => !x.isExecutable) ∧ Spec.UsesVar d x := by
  have hk : (ANode.variableValue (.var x)).kind ∈ innerKinds := by simp only [ANode.kind]; decide
  rw [queryCtx, (decorates_spec _ _).2.2.2.2.2.2 (some i) x]
  have h0 : x ∉ (emptyCtx doc schema).variableUsages (some i) := by simp [Ctx.variableUsages, emptyCtx]
  rw [or_iff_right h0, show (emptyCtx doc schema).cur = none from rfl, tagged_doc doc (some i) _ hk]
  constructor
  · rintro ⟨d, hc, hn⟩
    obtain ⟨d0, rest, h1, h2, h3⟩ := (charged_some doc.defs 0 i none d (by omega) (by simp)).1 hc
    exact ⟨d0, rest, d, h1, h2, h3, (inner_defNodes d _ hk).1 hn⟩
  · rintro ⟨d0, rest, d, h1, h2, h3, hn⟩
    exact ⟨d, (charged_some doc.defs 0 i none d (by omega) (by simp)).2 ⟨d0, rest, h1, h2, h3⟩, (inner_defNodes d _ hk).2 hn⟩

theorem queryCtx_bound (k : Option Nat) : ∀ j ∈ (queryCtx doc schema).referencedFragments k, j < doc.defs.length := by
  intro j hj
  obtain ⟨_, _, d', _, _, h, _⟩ := (queryCtx_refs doc schema k j).1 hj
  exact (List.getElem?_eq_some_iff.1 h).1

theorem reachable_spec {i j : Nat} {d : Definition} (hd : doc.defs[i]? = some d) :
    Reachable (queryCtx doc schema).referencedFragments (some i) j ↔ ∃ d', doc.defs[j]? = some d' ∧ Spec.Reaches doc d d' := by
  have hto : ∀ {i j d}, doc.defs[i]? = some d → (j ∈ (queryCtx doc schema).referencedFragments (some i) ↔
      ∃ d', doc.defs[j]? = some d' ∧ Spec.SpreadsTo doc d d') := by
    intro i j d hd
    rw [queryCtx_refs]
    constructor
    · rintro ⟨i', d1, d', e, h1, h2, h3⟩
      cases e
      rw [hd] at h1; cases h1
      exact ⟨d', h2, List.mem_of_getElem? h2, h3⟩
    · rintro ⟨d', h2, _, h3⟩
      exact ⟨i, d, d', rfl, hd, h2, h3⟩
  constructor
  · have gen : ∀ {k j}, Reachable (queryCtx doc schema).referencedFragments k j → ∀ i d, k = some i → doc.defs[i]? = some d →
        ∃ d', doc.defs[j]? = some d' ∧ Spec.Reaches doc d d' := by
      intro k j h
      induction h with
      | one h =>
        intro i d e hd
        subst e
        obtain ⟨d', h1, h2⟩ := (hto hd).1 h
        exact ⟨d', h1, .one h2⟩
      | more h _ ih =>
        intro i d e hd
        subst e
        obtain ⟨d', h1, h2⟩ := (hto hd).1 h
        obtain ⟨d'', h3, h4⟩ := ih _ d' rfl h1
        exact ⟨d'', h3, .more h2 h4⟩
    exact fun h => gen h i d rfl hd
  · rintro ⟨d', hj, h⟩
    induction h generalizing i with
    | one h => exact .one ((hto hd).2 ⟨_, hj, h⟩)
    | more h _ ih =>
      obtain ⟨k, hk⟩ := List.getElem?_of_mem h.1
      exact .more ((hto hd).2 ⟨_, hk, h⟩) (ih hk hj)

end

end GQL
