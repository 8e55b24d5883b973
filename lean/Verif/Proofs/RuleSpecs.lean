/-
The errors of each rule over a whole document.
-/
import Verif.Props.C29
import Verif.Proofs.PrepareErrors
import Verif.Spec.Rules
import Verif.Props.C17

namespace GQL
open Spec (Tree nodesAll traceAll group)

theorem events_enters {β : Type} (f : Event → List β) (h : ∀ n, f (.leave n) = []) : ∀ es : List Event,
    es.flatMap f = (enters es).flatMap fun n => f (.enter n)
  | [] => rfl
  | .enter n :: es => by rw [List.flatMap_cons, events_enters f h es]; rfl
  | .leave n :: es => by rw [List.flatMap_cons, h, List.nil_append, events_enters f h es]; rfl

theorem events_leaves {β : Type} (f : Event → List β) (h : ∀ n, f (.enter n) = []) : ∀ es : List Event,
    es.flatMap f = (leaves es).flatMap fun n => f (.leave n)
  | [] => rfl
  | .leave n :: es => by rw [List.flatMap_cons, events_leaves f h es]; rfl
  | .enter n :: es => by rw [List.flatMap_cons, h, List.nil_append, events_leaves f h es]; rfl

theorem flatMap_filterMap {α β γ : Type} (g : α → Option β) (h : β → List γ) (f : α → List γ)
    (e : ∀ x, f x = match g x with | some y => h y | none => []) : ∀ l : List α, l.flatMap f = (l.filterMap g).flatMap h
  | [] => rfl
  | a :: l => by
    rw [List.flatMap_cons, e a, flatMap_filterMap g h f e l, List.filterMap_cons]
    cases g a <;> rfl

/-- The errors of a rule that acts when nodes are entered. -/
theorem enter_errs (r : Rule) (hr : r ≠ .uniqueOperationTypes) (h : ∀ c n, r.errs c (.leave n) = []) (c : Ctx) (doc : Document) :
    (r.errsAll c (Spec.docTree false doc).trace).Perm ((Spec.nodes doc).flatMap fun n => r.errs c (.enter n)) := by
  unfold Rule.errsAll
  rw [if_neg hr, events_enters _ (h c), enters_trace]
  exact (Spec.docTree_perm doc).flatMap_right _

/-- The kinds of nodes that can contain the name of an operation. -/
def opNodeKinds : List NodeKind :=
  [.document, .definitions, .definition, .executableDefinition, .operationDefinition, .queryOperationDefinition, .mutationOperationDefinition,
   .subscriptionOperationDefinition]

theorem topNodes_named {β : Type} (g : ANode → Option β) (h : ∀ n, n.kind ∈ opNodeKinds → g n = none) (i : Nat) (d : Definition) :
    (topNodes i (nameAnonymous d)).filterMap g = (topNodes i d).filterMap g := by
  rcases nameAnonymous_body d with ⟨o, h1, h2⟩ | h1
  · have key : ∀ (d : Definition) (o : OpDef), d.body = .op o → (topNodes i d).filterMap g = [] := by
      intro d o hb
      rw [List.filterMap_eq_nil_iff]
      intro n hn
      refine h n ?_
      unfold topNodes at hn
      rw [hb] at hn
      obtain ⟨k, _, _, _, _⟩ := o
      cases k <;> simp [opKindNode] at hn <;> rcases hn with rfl | rfl | rfl | rfl <;> simp [ANode.kind, opNodeKinds]
    rw [key _ _ h2, key _ _ h1]
  · rw [h1]

theorem innerTrees_named (src : Bool) (d : Definition) : innerTrees src (nameAnonymous d) = innerTrees src d := by
  rcases nameAnonymous_body d with ⟨o, h1, h2⟩ | h1
  · unfold innerTrees; rw [h1, h2]
  · rw [h1]

/-- Naming the anonymous operations changes nothing else. -/
theorem nodes_named {β : Type} (g : ANode → Option β) (h : ∀ n, n.kind ∈ opNodeKinds → g n = none) (doc : Document) :
    (Spec.nodes (namedDoc doc)).filterMap g = (Spec.nodes doc).filterMap g := by
  have hd : ∀ d : Document, g (.document d) = none := fun d => h _ (by simp [ANode.kind, opNodeKinds])
  have hds : ∀ ds, g (.definitions ds) = none := fun d => h _ (by simp [ANode.kind, opNodeKinds])
  have pre : ∀ (d : Document) (b : Bool), ((.document d :: if b then [] else [.definitions d.defs]) : List ANode).filterMap g = [] := by
    intro d b; cases b <;> simp [hd, hds]
  have inner : ∀ (ds : List Definition) (i : Nat),
      (((ds.map nameAnonymous).zipIdx i).flatMap fun p => topNodes p.2 p.1 ++ nodesAll (innerTrees true p.1)).filterMap g =
        ((ds.zipIdx i).flatMap fun p => topNodes p.2 p.1 ++ nodesAll (innerTrees true p.1)).filterMap g := by
    intro ds
    induction ds with
    | nil => intro i; rfl
    | cons d ds ih =>
      intro i
      simp only [List.map_cons, List.zipIdx_cons, List.flatMap_cons, List.filterMap_append, ih, topNodes_named g h, innerTrees_named]
  unfold Spec.nodes
  rw [docTree_nodes, docTree_nodes, List.filterMap_append, List.filterMap_append, pre, pre]
  exact congrArg _ (inner doc.defs 0)

/-- A rule whose errors at a node are a function of a piece of the document: in a query document. -/
theorem query_rule {β : Type} (r : Rule) (hr : r.sdlOnly = false) (h : ∀ c n, r.errs c (.leave n) = []) (doc : Document) (schema : Option Schema)
    (g : ANode → Option β) (f : β → List GErr)
    (e : ∀ n, r.errs (queryCtx doc schema) (.enter n) = match g n with | some y => f y | none => []) :
    ∃ c, validate doc schema (rulesWalker [r]) = .ret c ∧ c.errors.Perm (((Spec.nodes doc).filterMap g).flatMap f) := by
  obtain ⟨c, h1, h2⟩ := validate_one doc schema r hr
  refine ⟨c, h1, h2.trans ((enter_errs r (fun x => by rw [x] at hr; cases hr) h _ doc).trans (.of_eq ?_))⟩
  exact flatMap_filterMap g f _ e _

/-- The same in an SDL document. -/
theorem sdl_rule {β : Type} (r : Rule) (hr : r ≠ .uniqueOperationTypes) (h : ∀ c n, r.errs c (.leave n) = []) (doc : Document) (schema : Option Schema)
    (g : ANode → Option β) (hg : ∀ n, n.kind ∈ opNodeKinds → g n = none) (f : β → List GErr)
    (e : ∀ n, r.errs (newSDLContext doc schema) (.enter n) = match g n with | some y => f y | none => []) :
    ∃ (c : Ctx) (X : List GErr), validateSDL doc schema (rulesWalker [r]) = .ret c ∧ c.errors = X ++ (newSDLContext doc schema).errors ∧
      X.Perm (((Spec.nodes doc).filterMap g).flatMap f) := by
  obtain ⟨c, X, h1, h2, h3⟩ := validateSDL_one doc schema r
  refine ⟨c, X, h1, h2, h3.trans ((enter_errs r hr h _ _).trans (.of_eq ?_))⟩
  rw [sdlCtx_doc, flatMap_filterMap g f _ e _, nodes_named g hg]

/-! ### The lookups -/

theorem schemaTypes_eq (schema : Option Schema) : (schema.getD {}).types = Spec.schemaTypes schema := by cases schema <;> rfl
theorem schemaDirectives_eq (schema : Option Schema) : (schema.getD {}).directives = Spec.schemaDirectives schema := by cases schema <;> rfl

theorem scalar_iff (n : Bytes) : isSpecifiedScalarName n = true ↔ n ∈ Spec.builtinScalars := by
  simp [isSpecifiedScalarName, Spec.builtinScalars, or_assoc]

theorem known_query (doc : Document) (schema : Option Schema) (n : Bytes) :
    typeNameKnown (queryCtx doc schema) n = true ↔ Spec.KnownType schema [] n := by
  unfold typeNameKnown Ctx.documentType Spec.KnownType
  rw [queryCtx_sdl, queryCtx_schema, schemaTypes_eq]
  simp [scalar_iff]

theorem find_name_isSome {defs : List TypeDef} {n : Bytes} : (defs.find? (fun t => t.name == n)).isSome = true ↔ ∃ t ∈ defs, t.name = n := by
  rw [List.find?_isSome]; simp

theorem known_sdl (doc : Document) (schema : Option Schema) (n : Bytes) :
    typeNameKnown (newSDLContext doc schema) n = true ↔ Spec.KnownType schema (Spec.typeDefs doc.defs) n := by
  unfold typeNameKnown Ctx.documentType Spec.KnownType
  rw [sdlCtx_sdl, sdlCtx_schema, schemaTypes_eq]
  dsimp only
  rw [sdlOf_types, schemaTypes_eq, Bool.or_eq_true, Bool.or_eq_true, scalar_iff]
  cases h : (List.lookup n (Spec.schemaTypes schema)).isSome
  · simp [find_name_isSome]
  · simp

theorem directive_query (doc : Document) (schema : Option Schema) (n : Bytes) :
    knownDirectiveDefinition (queryCtx doc schema) n = Spec.directiveDef schema [] n := by
  unfold knownDirectiveDefinition Ctx.documentDirective Spec.directiveDef
  rw [queryCtx_sdl, queryCtx_schema, schemaDirectives_eq]
  rfl

theorem directive_sdl (doc : Document) (schema : Option Schema) (n : Bytes) :
    knownDirectiveDefinition (newSDLContext doc schema) n = Spec.directiveDef schema (Spec.directiveDefs doc.defs) n := by
  unfold knownDirectiveDefinition Ctx.documentDirective Spec.directiveDef
  rw [sdlCtx_sdl, sdlCtx_schema, schemaDirectives_eq]
  dsimp only
  rw [sdlOf_dirs, schemaDirectives_eq]
  cases h : List.lookup n (Spec.schemaDirectives schema) with
  | some d => rfl
  | none => rfl

theorem mask_zero (l : DirLoc) (m : Nat) : m &&& l.bit = 0 ↔ ¬ Spec.inMask l m := by
  obtain ⟨i, h⟩ := bit_testBit l
  rw [inMask_iff h, h]
  constructor
  · intro e ht
    have := congrArg (fun x => x.testBit i) e
    simp [ht] at this
  · intro ht
    apply Nat.eq_of_testBit_eq
    intro j
    rw [Nat.testBit_and, Nat.testBit_two_pow, Nat.zero_testBit]
    by_cases hj : i = j
    · subst hj; simpa using ht
    · simp [hj]

end GQL
