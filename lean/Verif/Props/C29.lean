/-
C29: the errors of a walk with several rules are those of the rules one by one.
-/
import Verif.Proofs.Uses

namespace GQL

/-- The rules that look at `ctx.SDLContext` without testing for nil: they belong to `ParseSDLDoc` only. -/
def Rule.sdlOnly : Rule → Bool
  | .knownArgumentNamesOnDirectives | .possibleTypeExtensions | .providedRequiredArgumentsOnDirectives | .uniqueOperationTypes => true
  | _ => false

theorem walk_rules (rs : List Rule) (hu : rs.count .uniqueOperationTypes ≤ 1) (c : Ctx) (h : ∀ r ∈ rs, r.ready c) (doc : Document) :
    ∃ (c' : Ctx) (X : List GErr), Walker.walk (rulesWalker rs) (.ret c) doc = .ret c' ∧ c'.errors = X.reverse ++ c.errors ∧
      X.Perm (rs.flatMap fun r => r.errsAll c (Spec.docTree false doc).trace) ∧ c'.base = c.base := by
  unfold Walker.walk
  rw [walkDocument_eq]
  exact events_rules rs hu _ c h

theorem count_one (r : Rule) : [r].count .uniqueOperationTypes ≤ 1 := by
  rw [List.count_singleton]; split <;> decide

theorem queryCtx_ready (doc : Document) (schema : Option Schema) {r : Rule} (h : r.sdlOnly = false) : r.ready (queryCtx doc schema) := by
  cases r <;> first | trivial | (cases h; done) | skip
  intro d
  obtain ⟨u, hu, _⟩ := recursiveVariableUsages_spec (queryCtx doc schema) (N := doc.defs.length) (fun d => queryCtx_bound doc schema d)
    (fuel := (queryCtx doc schema).depthBound) (by rw [Ctx.depthBound, queryCtx_doc]; omega) d
  exact ⟨u, hu⟩

theorem prepare_refs (ds : List (Definition × Nat)) : ∀ (p : Ctx × SDLContext),
    (ds.foldl (fun (p : Ctx × SDLContext) d => prepareStep p.1 p.2 d) p).1.refs = p.1.refs := by
  induction ds with
  | nil => intro p; rfl
  | cons d ds ih =>
    intro p
    rw [List.foldl_cons, ih]
    obtain ⟨⟨loc, b⟩, i⟩ := d
    cases b <;> simp only [prepareStep] <;> (try rfl) <;> split <;> (try rfl) <;> split <;> rfl

theorem newSDLContext_refs (doc : Document) (schema : Option Schema) : (newSDLContext doc schema).refs = [] := prepare_refs _ _

theorem sdlCtx_ready (doc : Document) (schema : Option Schema) (r : Rule) : r.ready (newSDLContext doc schema) := by
  cases r <;> first | trivial | skip
  intro d
  obtain ⟨u, hu, _⟩ := recursiveVariableUsages_spec (newSDLContext doc schema) (N := 0)
    (fun d j hj => by simp [Ctx.referencedFragments, newSDLContext_refs] at hj)
    (fuel := (newSDLContext doc schema).depthBound) (by unfold Ctx.depthBound; omega) d
  exact ⟨u, hu⟩

/-- One rule in `Validate`. -/
theorem validate_one (doc : Document) (schema : Option Schema) (r : Rule) (h : r.sdlOnly = false) :
    ∃ c, validate doc schema (rulesWalker [r]) = .ret c ∧ c.errors.Perm (r.errsAll (queryCtx doc schema) (Spec.docTree false doc).trace) := by
  obtain ⟨c, X, h1, h2, h3, _⟩ := walk_rules [r] (count_one r) (queryCtx doc schema)
    (by intro r' hr'; simp only [List.mem_singleton] at hr'; subst hr'; exact queryCtx_ready doc schema h) doc
  refine ⟨c, by unfold validate; rw [newContext_ret]; exact h1, ?_⟩
  rw [h2, queryCtx_errors, List.append_nil]
  exact (List.reverse_perm X).trans (by simpa using h3)

/-- One rule in `ValidateSDL`. -/
theorem validateSDL_one (doc : Document) (schema : Option Schema) (r : Rule) :
    ∃ (c : Ctx) (X : List GErr), validateSDL doc schema (rulesWalker [r]) = .ret c ∧ c.errors = X ++ (newSDLContext doc schema).errors ∧
      X.Perm (r.errsAll (newSDLContext doc schema) (Spec.docTree false (newSDLContext doc schema).doc).trace) := by
  obtain ⟨c, X, h1, h2, h3, _⟩ := walk_rules [r] (count_one r) (newSDLContext doc schema)
    (fun r' _ => sdlCtx_ready doc schema r') (newSDLContext doc schema).doc
  exact ⟨c, X.reverse, h1, h2, (List.reverse_perm X).trans (by simpa using h3)⟩

theorem flatMap_perm {α β : Type} : ∀ {l : List α} {f g : α → List β}, (∀ x ∈ l, (f x).Perm (g x)) → (l.flatMap f).Perm (l.flatMap g)
  | [], _, _, _ => .refl _
  | a :: l, f, g, h => by
    rw [List.flatMap_cons, List.flatMap_cons]
    exact (h a (by simp)).append (flatMap_perm fun x hx => h x (by simp [hx]))

/-- **C29 for `Validate`**: for every query document, schema and list of rules (in any order, also with repetitions) the walk with all of them
and the walk with each of them return, and the errors of the common walk are, as a multiset, all errors of the single walks. -/
theorem C29_query (doc : Document) (schema : Option Schema) (rs : List Rule) (h : ∀ r ∈ rs, r.sdlOnly = false) :
    ∃ (c : Ctx) (alone : Rule → Ctx), validate doc schema (rulesWalker rs) = .ret c ∧
      (∀ r ∈ rs, validate doc schema (rulesWalker [r]) = .ret (alone r)) ∧
      c.errors.Perm (rs.flatMap fun r => (alone r).errors) := by
  have hu : rs.count .uniqueOperationTypes ≤ 1 := by
    have : Rule.uniqueOperationTypes ∉ rs := fun hm => by cases h _ hm
    rw [List.count_eq_zero_of_not_mem this]; omega
  obtain ⟨c, X, h1, h2, h3, _⟩ := walk_rules rs hu (queryCtx doc schema) (fun r hr => queryCtx_ready doc schema (h r hr)) doc
  have ha : ∀ r : Rule, ∃ a : Ctx, r.sdlOnly = false → validate doc schema (rulesWalker [r]) = .ret a ∧
      a.errors.Perm (r.errsAll (queryCtx doc schema) (Spec.docTree false doc).trace) := by
    intro r
    by_cases hr : r.sdlOnly = false
    · obtain ⟨a, ha⟩ := validate_one doc schema r hr; exact ⟨a, fun _ => ha⟩
    · exact ⟨queryCtx doc schema, fun h => absurd h hr⟩
  obtain ⟨alone, ha⟩ := Classical.axiomOfChoice ha
  refine ⟨c, alone, by unfold validate; rw [newContext_ret]; exact h1, fun r hr => (ha r (h r hr)).1, ?_⟩
  rw [h2, queryCtx_errors, List.append_nil]
  exact ((List.reverse_perm X).trans h3).trans (flatMap_perm fun r hr => (ha r (h r hr)).2.symm)

/-- **C29 for `ValidateSDL`**: the same, for all rules; `found r` is what rule `r` by itself adds to the errors `start` that are there before any
rule has run (those about repeated definitions).  A rule may be given more than once, except `UniqueOperationTypes`. -/
theorem C29_sdl (doc : Document) (schema : Option Schema) (rs : List Rule) (hu : rs.count .uniqueOperationTypes ≤ 1) :
    ∃ (c c0 : Ctx) (alone : Rule → Ctx) (found : Rule → List GErr), validateSDL doc schema (rulesWalker rs) = .ret c ∧
      validateSDL doc schema (rulesWalker []) = .ret c0 ∧
      (∀ r, validateSDL doc schema (rulesWalker [r]) = .ret (alone r) ∧ (alone r).errors = found r ++ c0.errors) ∧
      c.errors.Perm (rs.flatMap found ++ c0.errors) := by
  obtain ⟨c, X, h1, h2, h3, _⟩ := walk_rules rs hu (newSDLContext doc schema) (fun r _ => sdlCtx_ready doc schema r) (newSDLContext doc schema).doc
  obtain ⟨c0, X0, g1, g2, g3, _⟩ := walk_rules [] (by simp) (newSDLContext doc schema) (fun r _ => sdlCtx_ready doc schema r) (newSDLContext doc schema).doc
  have e0 : X0 = [] := by simpa using g3
  subst e0
  obtain ⟨alone, ha⟩ := Classical.axiomOfChoice (validateSDL_one doc schema)
  obtain ⟨found, ha⟩ := Classical.axiomOfChoice ha
  refine ⟨c, c0, alone, found, h1, g1, fun r => ⟨(ha r).1, ?_⟩, ?_⟩
  · rw [(ha r).2.1, g2]; rfl
  · rw [h2, g2]
    refine List.Perm.append_right _ ((List.reverse_perm X).trans (h3.trans (flatMap_perm fun r _ => (ha r).2.2.symm)))

/-- The enabled rules meet the conditions of `C29_query` and `C29_sdl`; see the examples in Props/C39 and Props/C40 for their errors. -/
example : (∀ r ∈ specified, r.sdlOnly = false) ∧ specifiedSDL.count .uniqueOperationTypes ≤ 1 ∧ specified.length = 8 ∧ specifiedSDL.length = 10 := by
  decide

end GQL
