/-
What `NewContext` puts into the context: for each executable definition the fragments it refers to and the variables it uses.
-/
import Verif.Proofs.Dfs
import Verif.Props.C28

namespace GQL
open Spec (Tree nodesAll traceAll group)

/-- What the four decorators do when a node is entered. -/
def decorate (c : Ctx) : ANode → Ctx
  | .fragmentDefinition f => { c with fragments := mapSet c.fragments f.name f }
  | .executableDefinition i _ => { c with cur := some i }
  | .fragmentSpreadSelection (.spread name _) => c.doc.defs.zipIdx.foldl (refStep name) c
  | .variableValue (.var name) =>
    if (c.variableUsages c.cur).contains name then c
    else { c with usages := mapSet c.usages c.cur (c.variableUsages c.cur ++ [name]) }
  | _ => c

theorem decorator_enter (n : ANode) (c : Ctx) : Walker.on queryContextDecoratorWalker (.enter n) (.ret c) = .ret (decorate c n) := by
  cases n <;> try rfl
  case fragmentSpreadSelection s => cases s <;> rfl
  case variableValue v =>
    cases v <;> try rfl
    rename_i name
    show (if (c.variableUsages c.cur).contains name then Out.ret c else Out.ret _) = Out.ret (if (c.variableUsages c.cur).contains name then c else _)
    split <;> rfl

theorem decorator_leave (n : ANode) (c : Out Ctx) : Walker.on queryContextDecoratorWalker (.leave n) c = c := by
  cases n <;> rfl

theorem decorator_events : ∀ (es : List Event) (c : Ctx),
    es.foldl (fun o e => Walker.on queryContextDecoratorWalker e o) (.ret c) = .ret ((enters es).foldl decorate c)
  | [], _ => rfl
  | .enter n :: es, c => by
    rw [List.foldl_cons, decorator_enter, decorator_events es]; rfl
  | .leave n :: es, c => by
    rw [List.foldl_cons, decorator_leave, decorator_events es]; rfl

/-- The context `NewContext` starts from. -/
def emptyCtx (doc : Document) (schema : Option Schema) : Ctx := { doc := doc, schema := schema.getD {} }

theorem newContext_eq (doc : Document) (schema : Option Schema) :
    newContext doc schema = .ret ((Spec.docTree false doc).nodes.foldl decorate (emptyCtx doc schema)) := by
  unfold newContext Walker.walk
  rw [walkDocument_eq]
  refine (decorator_events _ _).trans ?_
  rw [enters_trace]
  rfl

/-! ### Maps -/

theorem lookup_mapSet {κ β : Type} [BEq κ] [LawfulBEq κ] (m : List (κ × β)) (k k' : κ) (v : β) :
    (mapSet m k v).lookup k' = if k' == k then some v else m.lookup k' := by
  induction m with
  | nil => simp only [mapSet, List.lookup]; cases k' == k <;> rfl
  | cons p m ih =>
    obtain ⟨a, b⟩ := p
    simp only [mapSet]
    by_cases hak : (a == k) = true
    · rw [if_pos hak]
      have := eq_of_beq hak
      subst this
      simp only [List.lookup]
      cases k' == a <;> rfl
    · rw [if_neg hak]
      simp only [List.lookup, ih]
      by_cases h : (k' == a) = true
      · rw [h]
        have := eq_of_beq h
        subst this
        rw [if_neg hak, if_neg hak]
      · simp only [Bool.not_eq_true] at h
        rw [h]

/-! ### Nodes with the definition they are counted for -/

/-- The definition that is current once the node has been entered. -/
def curAt (cur : Option Nat) : ANode → Option Nat
  | .executableDefinition i _ => some i
  | _ => cur

/-- The nodes with the current definition. -/
def tagged : Option Nat → List ANode → List (Option Nat × ANode)
  | _, [] => []
  | cur, n :: ns => (curAt cur n, n) :: tagged (curAt cur n) ns

/-- The definition that is current after the nodes. -/
def curAfter (cur : Option Nat) (ns : List ANode) : Option Nat := ns.foldl curAt cur

theorem tagged_append : ∀ (a b : List ANode) (cur : Option Nat), tagged cur (a ++ b) = tagged cur a ++ tagged (curAfter cur a) b
  | [], _, _ => rfl
  | n :: a, b, cur => by simp only [List.cons_append, tagged, tagged_append a b, curAfter, List.foldl_cons]

/-- Definition number `j` is a fragment of that name. -/
def isFrag (doc : Document) (j : Nat) (name : Bytes) : Prop := ∃ d f, doc.defs[j]? = some d ∧ d.body = .frag f ∧ f.name = name

theorem refStep_spec (name : Bytes) (d : Definition × Nat) (c : Ctx) :
    (refStep name c d).doc = c.doc ∧ (refStep name c d).cur = c.cur ∧ (refStep name c d).usages = c.usages ∧
    (refStep name c d).schema = c.schema ∧ (refStep name c d).errors = c.errors ∧ (refStep name c d).sdl = c.sdl ∧
    (refStep name c d).operations = c.operations ∧ (refStep name c d).fragments = c.fragments ∧
    ∀ k j, j ∈ (refStep name c d).referencedFragments k ↔ j ∈ c.referencedFragments k ∨
      (k = c.cur ∧ j = d.2 ∧ ∃ f, d.1.body = .frag f ∧ f.name = name) := by
  obtain ⟨⟨loc, b⟩, i⟩ := d
  cases b <;> try (refine ⟨rfl, rfl, rfl, rfl, rfl, rfl, rfl, rfl, fun k j => ?_⟩; simp [refStep])
  rename_i f
  simp only [refStep]
  by_cases hf : f.name == name
  · rw [if_pos hf]
    by_cases hc : (c.referencedFragments c.cur).contains i
    · rw [if_pos hc]
      refine ⟨rfl, rfl, rfl, rfl, rfl, rfl, rfl, rfl, fun k j => ⟨.inl, ?_⟩⟩
      rintro (h | ⟨rfl, rfl, _⟩)
      · exact h
      · exact List.contains_iff_mem.1 hc
    · rw [if_neg hc]
      refine ⟨rfl, rfl, rfl, rfl, rfl, rfl, rfl, rfl, fun k j => ?_⟩
      have hfn := eq_of_beq hf
      unfold Ctx.referencedFragments
      rw [lookup_mapSet]
      by_cases hk : k = c.cur
      · subst hk
        simp [hfn]
      · simp [hk]
  · rw [if_neg hf]
    refine ⟨rfl, rfl, rfl, rfl, rfl, rfl, rfl, rfl, fun k j => ⟨.inl, ?_⟩⟩
    rintro (h | ⟨_, _, f', he, h⟩)
    · exact h
    · cases he; exact absurd (beq_iff_eq.2 h) hf

theorem refSteps_spec (name : Bytes) : ∀ (ds : List (Definition × Nat)) (c : Ctx),
    (ds.foldl (refStep name) c).doc = c.doc ∧ (ds.foldl (refStep name) c).cur = c.cur ∧ (ds.foldl (refStep name) c).usages = c.usages ∧
    (ds.foldl (refStep name) c).schema = c.schema ∧ (ds.foldl (refStep name) c).errors = c.errors ∧ (ds.foldl (refStep name) c).sdl = c.sdl ∧
    (ds.foldl (refStep name) c).operations = c.operations ∧ (ds.foldl (refStep name) c).fragments = c.fragments ∧
    ∀ k j, j ∈ (ds.foldl (refStep name) c).referencedFragments k ↔ j ∈ c.referencedFragments k ∨
      (k = c.cur ∧ ∃ d ∈ ds, j = d.2 ∧ ∃ f, d.1.body = .frag f ∧ f.name = name)
  | [], c => ⟨rfl, rfl, rfl, rfl, rfl, rfl, rfl, rfl, fun k j => by simp⟩
  | d :: ds, c => by
    obtain ⟨a1, a2, a3, a4, a5, a6, a7, a8, a9⟩ := refStep_spec name d c
    obtain ⟨b1, b2, b3, b4, b5, b6, b7, b8, b9⟩ := refSteps_spec name ds (refStep name c d)
    rw [List.foldl_cons]
    refine ⟨b1.trans a1, b2.trans a2, b3.trans a3, b4.trans a4, b5.trans a5, b6.trans a6, b7.trans a7, b8.trans a8, fun k j => ?_⟩
    rw [b9, a9, a2, or_assoc]
    refine or_congr_right ?_
    constructor
    · rintro (⟨h1, h2⟩ | ⟨h1, e, h2, h3⟩)
      · exact ⟨h1, d, by simp, h2⟩
      · exact ⟨h1, e, by simp [h2], h3⟩
    · rintro ⟨h1, e, h2, h3⟩
      rcases List.mem_cons.1 h2 with rfl | h2
      · exact .inl ⟨h1, h3⟩
      · exact .inr ⟨h1, e, h2, h3⟩

/-- What the decorators keep, and what they add for one node. -/
theorem decorate_spec (n : ANode) (c : Ctx) :
    (decorate c n).doc = c.doc ∧ (decorate c n).cur = curAt c.cur n ∧ (decorate c n).schema = c.schema ∧
    (decorate c n).errors = c.errors ∧ (decorate c n).sdl = c.sdl ∧ (decorate c n).operations = c.operations ∧
    (∀ k j, j ∈ (decorate c n).referencedFragments k ↔ j ∈ c.referencedFragments k ∨
      (k = c.cur ∧ ∃ name ds, n = .fragmentSpreadSelection (.spread name ds) ∧ isFrag c.doc j name)) ∧
    (∀ k x, x ∈ (decorate c n).variableUsages k ↔ x ∈ c.variableUsages k ∨ (k = c.cur ∧ n = .variableValue (.var x))) := by
  have triv : ∀ c' : Ctx, c'.doc = c.doc → c'.cur = curAt c.cur n → c'.schema = c.schema → c'.errors = c.errors → c'.sdl = c.sdl →
      c'.operations = c.operations → c'.refs = c.refs → c'.usages = c.usages → (∀ name ds, n ≠ .fragmentSpreadSelection (.spread name ds)) →
      (∀ x, n ≠ .variableValue (.var x)) →
      c'.doc = c.doc ∧ c'.cur = curAt c.cur n ∧ c'.schema = c.schema ∧ c'.errors = c.errors ∧ c'.sdl = c.sdl ∧ c'.operations = c.operations ∧
      (∀ k j, j ∈ c'.referencedFragments k ↔ j ∈ c.referencedFragments k ∨
        (k = c.cur ∧ ∃ name ds, n = .fragmentSpreadSelection (.spread name ds) ∧ isFrag c.doc j name)) ∧
      (∀ k x, x ∈ c'.variableUsages k ↔ x ∈ c.variableUsages k ∨ (k = c.cur ∧ n = .variableValue (.var x))) := by
    intro c' h1 h2 h3 h4 h5 h6 h7 h8 h9 h10
    refine ⟨h1, h2, h3, h4, h5, h6, fun k j => ?_, fun k x => ?_⟩
    · unfold Ctx.referencedFragments
      rw [h7]
      exact ⟨.inl, fun h => h.elim id fun ⟨_, name, ds, e, _⟩ => absurd e (h9 name ds)⟩
    · unfold Ctx.variableUsages
      rw [h8]
      exact ⟨.inl, fun h => h.elim id fun ⟨_, e⟩ => absurd e (h10 x)⟩
  cases n <;> try exact triv _ rfl rfl rfl rfl rfl rfl rfl rfl (by simp) (by simp)
  case fragmentSpreadSelection s =>
    cases s <;> try exact triv _ rfl rfl rfl rfl rfl rfl rfl rfl (by simp) (by simp)
    rename_i name ds
    obtain ⟨b1, b2, b3, b4, b5, b6, b7, b8, b9⟩ := refSteps_spec name c.doc.defs.zipIdx c
    refine ⟨b1, b2, b4, b5, b6, b7, fun k j => (b9 k j).trans (or_congr_right (and_congr_right fun _ => ?_)), fun k x => ?_⟩
    · constructor
      · rintro ⟨⟨d, i⟩, hd, rfl, f, hb, hn⟩
        rw [List.mem_zipIdx_iff_getElem?] at hd
        exact ⟨name, ds, rfl, d, f, hd, hb, hn⟩
      · rintro ⟨name', ds', e, d, f, hd, hb, hn⟩
        cases e
        exact ⟨(d, j), List.mem_zipIdx_iff_getElem?.2 hd, rfl, f, hb, hn⟩
    · have : (decorate c (.fragmentSpreadSelection (.spread name ds))).variableUsages k = c.variableUsages k := by
        unfold Ctx.variableUsages
        rw [show (decorate c (.fragmentSpreadSelection (.spread name ds))).usages = c.usages from b3]
      rw [this]; simp
  case variableValue v =>
    cases v <;> try exact triv _ rfl rfl rfl rfl rfl rfl rfl rfl (by simp) (by simp)
    rename_i name
    by_cases hc : (c.variableUsages c.cur).contains name
    · have : decorate c (.variableValue (.var name)) = c := if_pos hc
      rw [this]
      refine ⟨rfl, rfl, rfl, rfl, rfl, rfl, fun k j => by simp, fun k x => ?_⟩
      constructor
      · exact .inl
      · rintro (h | ⟨rfl, h⟩)
        · exact h
        · cases h; exact List.contains_iff_mem.1 hc
    · have : decorate c (.variableValue (.var name)) = { c with usages := mapSet c.usages c.cur (c.variableUsages c.cur ++ [name]) } := if_neg hc
      rw [this]
      refine ⟨rfl, rfl, rfl, rfl, rfl, rfl, fun k j => by simp [Ctx.referencedFragments], fun k x => ?_⟩
      unfold Ctx.variableUsages
      rw [lookup_mapSet]
      by_cases hk : k = c.cur
      · subst hk
        simp [eq_comm]
      · simp [hk]

/-- The same for a list of nodes. -/
theorem decorates_spec : ∀ (ns : List ANode) (c : Ctx),
    (ns.foldl decorate c).doc = c.doc ∧ (ns.foldl decorate c).schema = c.schema ∧
    (ns.foldl decorate c).errors = c.errors ∧ (ns.foldl decorate c).sdl = c.sdl ∧ (ns.foldl decorate c).operations = c.operations ∧
    (∀ k j, j ∈ (ns.foldl decorate c).referencedFragments k ↔ j ∈ c.referencedFragments k ∨
      ∃ name ds, (k, .fragmentSpreadSelection (.spread name ds)) ∈ tagged c.cur ns ∧ isFrag c.doc j name) ∧
    (∀ k x, x ∈ (ns.foldl decorate c).variableUsages k ↔ x ∈ c.variableUsages k ∨ (k, .variableValue (.var x)) ∈ tagged c.cur ns)
  | [], c => ⟨rfl, rfl, rfl, rfl, rfl, fun k j => by simp [tagged], fun k x => by simp [tagged]⟩
  | n :: ns, c => by
    obtain ⟨a1, a2, a3, a4, a5, a6, a7, a8⟩ := decorate_spec n c
    obtain ⟨b1, b2, b3, b4, b5, b6, b7⟩ := decorates_spec ns (decorate c n)
    rw [List.foldl_cons]
    refine ⟨b1.trans a1, b2.trans a3, b3.trans a4, b4.trans a5, b5.trans a6, fun k j => ?_, fun k x => ?_⟩
    · rw [b6, a7, a2, a1, or_assoc]
      refine or_congr_right ?_
      simp only [tagged, List.mem_cons, Prod.mk.injEq]
      constructor
      · rintro (⟨h1, name, ds, h2, h3⟩ | ⟨name, ds, h2, h3⟩)
        · subst h2; exact ⟨name, ds, .inl ⟨h1, rfl⟩, h3⟩
        · exact ⟨name, ds, .inr h2, h3⟩
      · rintro ⟨name, ds, ⟨h1, h2⟩ | h2, h3⟩
        · subst h2; exact .inl ⟨h1, name, ds, rfl, h3⟩
        · exact .inr ⟨name, ds, h2, h3⟩
    · rw [b7, a8, a2, or_assoc]
      refine or_congr_right ?_
      simp only [tagged, List.mem_cons, Prod.mk.injEq]
      constructor
      · rintro (⟨h1, h2⟩ | h2)
        · subst h2; exact .inl ⟨h1, rfl⟩
        · exact .inr h2
      · rintro (⟨h1, h2⟩ | h2)
        · subst h2; exact .inl ⟨h1, rfl⟩
        · exact .inr h2

end GQL
