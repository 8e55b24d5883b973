/-
C78: what a rule can look up in its context.
-/
import Verif.Proofs.Asked
import Verif.Props.C40
import Verif.Props.C63

namespace GQL
open Classical

section
variable (doc : Document) (schema : Option Schema) (rs : List Rule)

theorem base_lookups {c c' : Ctx} (h : c.base = c'.base) :
    (∀ n, c.typeDefinition n = c'.typeDefinition n) ∧ (∀ n, c.directiveDefinition n = c'.directiveDefinition n) ∧
    (∀ n, c.fragment n = c'.fragment n) ∧ c.operations = c'.operations ∧ (∀ k, c.referencedFragments k = c'.referencedFragments k) ∧
    (∀ k, c.variableUsages k = c'.variableUsages k) ∧ c.schema = c'.schema ∧ c.doc = c'.doc := by
  refine ⟨fun n => ?_, fun n => ?_, fun n => ?_, Ctx.base_operations h, fun k => ?_, fun k => ?_, Ctx.base_schema h, Ctx.base_doc h⟩
  · rw [← Ctx.typeDefinition_base, h, Ctx.typeDefinition_base]
  · rw [← Ctx.directiveDefinition_base, h, Ctx.directiveDefinition_base]
  · have := congrArg (fun c : Ctx => c.fragments.lookup n) h; exact this
  · have := congrArg (fun c : Ctx => (c.refs.lookup k).getD []) h; exact this
  · have := congrArg (fun c : Ctx => (c.usages.lookup k).getD []) h; exact this

theorem opName_listed {d : Definition} {n : Bytes} (h : ∃ o, d.body = .op o ∧ Spec.listedName o = n) : opName (nameAnonymous d) = some n := by
  obtain ⟨o, h1, h2⟩ := h
  rcases nameAnonymous_body d with ⟨o', h3, h4⟩ | h3
  · cases h3.symm.trans h1
    unfold opName
    rw [h4]
    exact congrArg some h2
  · have := opName_named [d]
    simp only [List.map_cons, List.map_nil, List.filterMap_cons, List.filterMap_nil, Spec.operations, h1] at this
    unfold Spec.listedName at h2
    rw [h2] at this
    cases e : opName (nameAnonymous d) with
    | none => rw [e] at this; cases this
    | some m => rw [e] at this; cases this; rfl

theorem listed_opName {d : Definition} {n : Bytes} (h : opName (nameAnonymous d) = some n) : ∃ o, d.body = .op o ∧ Spec.listedName o = n := by
  have := opName_named [d]
  simp only [List.map_cons, List.map_nil, List.filterMap_cons, List.filterMap_nil, h] at this
  obtain ⟨loc, b⟩ := d
  cases b <;> try (cases this; done)
  rename_i o
  exact ⟨o, rfl, by unfold Spec.listedName; exact (List.cons.inj this).1.symm⟩

theorem lastOp_iff (n : Bytes) : ∀ (ds : List Definition) (k i : Nat), lastOp n (ds.zipIdx k) = some i ↔
    ∃ m, i = k + m ∧ (∃ d, ds[m]? = some d ∧ opName d = some n) ∧ ∀ j d, m < j → ds[j]? = some d → opName d ≠ some n
  | [], k, i => by simp [lastOp]
  | d :: ds, k, i => by
    rw [List.zipIdx_cons, lastOp]
    cases e : lastOp n (ds.zipIdx (k + 1)) with
    | some j =>
      obtain ⟨m, rfl, ⟨d', h1, h2⟩, h3⟩ := (lastOp_iff n ds (k + 1) j).1 e
      simp only [Option.some_or, Option.some.injEq]
      constructor
      · rintro rfl
        refine ⟨m + 1, by omega, ⟨d', by simpa using h1, h2⟩, fun j d'' hj hd => ?_⟩
        cases j with
        | zero => omega
        | succ j => exact h3 j d'' (by omega) (by simpa using hd)
      · rintro ⟨m', rfl, ⟨d'', h4, h5⟩, h6⟩
        rcases Nat.lt_trichotomy m' (m + 1) with h | h | h
        · exact absurd h2 (h6 (m + 1) d' h (by simpa using h1))
        · omega
        · cases m' with
          | zero => omega
          | succ m' => exact absurd h5 (h3 m' d'' (by omega) (by simpa using h4))
    | none =>
      rw [Option.none_or]
      have none' : ∀ (j : Nat) (d' : Definition), ds[j]? = some d' → opName d' ≠ some n := by
        intro j d' hj ho
        obtain ⟨i', hi'⟩ := lastOp_some (n := n) (k := k + 1) (ds := ds) (List.mem_filterMap.2 ⟨d', List.mem_of_getElem? hj, ho⟩)
        rw [e] at hi'; cases hi'
      by_cases h : opName d = some n
      · rw [if_pos h]
        constructor
        · rintro h'; cases h'
          refine ⟨0, by omega, ⟨d, rfl, h⟩, fun j d' hj hd => ?_⟩
          cases j with
          | zero => omega
          | succ j => exact none' j d' (by simpa using hd)
        · rintro ⟨m', rfl, ⟨d'', h4, h5⟩, h6⟩
          cases m' with
          | zero => rfl
          | succ m' => exact absurd h5 (none' m' d'' (by simpa using h4))
      · rw [if_neg h]
        constructor
        · intro h'; cases h'
        · rintro ⟨m', rfl, ⟨d'', h4, h5⟩, h6⟩
          cases m' with
          | zero => cases h4; exact absurd h5 h
          | succ m' => exact absurd h5 (none' m' d'' (by simpa using h4))

theorem sdlCtx_operation (n : Bytes) (i : Nat) : (newSDLContext doc schema).operations.lookup n = some i ↔ Spec.IsLastOperation doc n i := by
  show (prepare _ _).1.operations.lookup n = some i ↔ _
  rw [prepare_operations]
  show (lastOp n ((doc.defs.map nameAnonymous).zipIdx)).or none = some i ↔ _
  rw [Option.or_none, lastOp_iff]
  constructor
  · rintro ⟨m, rfl, ⟨d, h1, h2⟩, h3⟩
    rw [Nat.zero_add]
    rw [List.getElem?_map] at h1
    cases h : doc.defs[m]? with
    | none => rw [h] at h1; cases h1
    | some d' =>
      rw [h] at h1; cases h1
      obtain ⟨o, h4, h5⟩ := listed_opName h2
      refine ⟨⟨d', o, h, h4, h5⟩, fun j d'' o' hj hd ho hn => ?_⟩
      exact h3 j (nameAnonymous d'') hj (by rw [List.getElem?_map, hd]; rfl) (opName_listed ⟨o', ho, hn⟩)
  · rintro ⟨⟨d, o, h1, h2, h3⟩, h4⟩
    refine ⟨i, (Nat.zero_add i).symm, ⟨nameAnonymous d, by rw [List.getElem?_map, h1]; rfl, opName_listed ⟨o, h2, h3⟩⟩, fun j d' hj hd ho => ?_⟩
    rw [List.getElem?_map] at hd
    cases h : doc.defs[j]? with
    | none => rw [h] at hd; cases hd
    | some d'' =>
      rw [h] at hd; cases hd
      obtain ⟨o', h5, h6⟩ := listed_opName ho
      exact h4 j d'' o' hj h h5 h6

theorem prepare_usages0 : (newSDLContext doc schema).usages = [] := (prepare_keeps _ _).2.2.2.1

/-- **C78 for `ValidateSDL`**: whatever rules there are and however far the walk is, a rule that looks up a type gets the one of the schema that is
extended and `true`, else the first one of the document, if any, and `false`; of a directive likewise, with the built-in ones in the last place; of a
fragment or operation the last one of the document (an operation without a name is listed under `$$query`).  Variables and spreads are not listed. -/
theorem C78_sdl {c : Ctx} (h : Spec.DuringValidateSDL doc schema rs c) :
    (∀ n, c.typeDefinition n = .ret (match (Spec.schemaTypes schema).lookup n with
      | some t => (some t, true)
      | none => ((Spec.typeDefs doc.defs).find? fun t => t.name == n, false))) ∧
    (∀ n, c.directiveDefinition n = .ret (Spec.directiveDef schema (Spec.directiveDefs doc.defs) n, ((Spec.schemaDirectives schema).lookup n).isSome)) ∧
    (∀ n, c.fragment n = Spec.lastFragment doc n) ∧
    (∀ n i, c.operations.lookup n = some i ↔ Spec.IsLastOperation doc n i) ∧
    (∀ i, c.referencedFragments i = [] ∧ c.variableUsages i = []) ∧
    c.schema = schema.getD {} := by
  obtain ⟨done, rest, h1, h2⟩ := h
  obtain ⟨c', h3, h4⟩ := base_during rs done (newSDLContext doc schema) (fun r _ => sdlCtx_ready doc schema r)
  cases h2.symm.trans h3
  obtain ⟨b1, b2, b3, b4, b5, b6, b7, b8⟩ := base_lookups h4
  refine ⟨fun n => ?_, fun n => ?_, fun n => ?_, fun n i => ?_, fun i => ⟨?_, ?_⟩, b7.trans (sdlCtx_schema doc schema)⟩
  · rw [b1]
    unfold Ctx.typeDefinition
    rw [sdlCtx_sdl, sdlCtx_schema, schemaTypes_eq]
    dsimp only
    rw [sdlOf_types, sdlOf_extending, schemaTypes_eq]
    cases schema with
    | none => rfl
    | some s =>
      simp only [Option.isSome_some, ↓reduceIte]
      cases h : List.lookup n (Spec.schemaTypes (some s)) with
      | some d => rfl
      | none => rfl
  · rw [b2]
    have hd := argDirective_sdl doc schema n
    unfold argDirectiveDefinition at hd
    have hs : ∃ d, (newSDLContext doc schema).directiveDefinition n = .ret (d, ((Spec.schemaDirectives schema).lookup n).isSome) := by
      unfold Ctx.directiveDefinition
      rw [sdlCtx_sdl, sdlCtx_schema, schemaDirectives_eq]
      dsimp only
      rw [sdlOf_extending]
      cases schema with
      | none => exact ⟨_, rfl⟩
      | some s => exact ⟨_, rfl⟩
    obtain ⟨d, hs⟩ := hs
    rw [hs] at hd ⊢
    rw [← hd]
  · rw [b3]; exact sdlCtx_fragment doc schema n
  · rw [b4]; exact sdlCtx_operation doc schema n i
  · rw [b5]; unfold Ctx.referencedFragments; rw [newSDLContext_refs]; rfl
  · rw [b6]; unfold Ctx.variableUsages; rw [prepare_usages0]; rfl

/-- **C78 for `Validate`**: however far the walk is, a rule that looks up a fragment gets the last one of the document; the fragments listed for
definition number `i` are, each once, those it spreads, and the variables, each once, those that occur around it (C33); operations are not listed;
looking up a type or directive panics. -/
theorem C78_query (hr : ∀ r ∈ rs, r.sdlOnly = false) {c : Ctx} (h : Spec.DuringValidate doc schema rs c) :
    (∀ n, c.fragment n = Spec.lastFragment doc n) ∧
    (∀ i d, doc.defs[i]? = some d → (c.referencedFragments (some i)).Nodup ∧
      ∀ j, j ∈ c.referencedFragments (some i) ↔ ∃ d', doc.defs[j]? = some d' ∧ Spec.SpreadsTo doc d d') ∧
    (∀ i d, doc.defs[i]? = some d → d.isExecutable = true → (c.variableUsages (some i)).Nodup ∧
      ∀ x, x ∈ c.variableUsages (some i) ↔ Spec.UsesAround doc i x) ∧
    (∀ n, c.typeDefinition n = .panic ∧ c.directiveDefinition n = .panic ∧ c.operations.lookup n = none) ∧
    c.schema = schema.getD {} ∧ c.doc = doc := by
  obtain ⟨c0, done, rest, h0, h1, h2⟩ := h
  cases (newContext_ret doc schema).symm.trans h0
  obtain ⟨c', h3, h4⟩ := base_during rs done (queryCtx doc schema) (fun r hr' => queryCtx_ready doc schema (hr r hr'))
  cases h2.symm.trans h3
  obtain ⟨b1, b2, b3, b4, b5, b6, b7, b8⟩ := base_lookups h4
  refine ⟨fun n => ?_, fun i d hd => ?_, fun i d hd he => ?_, fun n => ⟨?_, ?_, ?_⟩, b7.trans (queryCtx_schema doc schema), b8.trans (queryCtx_doc doc schema)⟩
  · rw [b3]; exact queryCtx_fragment doc schema n
  · rw [b5]
    refine ⟨(queryCtx_nodup doc schema).1 _, fun j => (queryCtx_refs doc schema _ j).trans ⟨?_, ?_⟩⟩
    · rintro ⟨i', d0, d', hi, h1, h2, name, h3, h4⟩
      cases hi
      cases h1.symm.trans hd
      exact ⟨d', h2, List.mem_of_getElem? h2, name, h3, h4⟩
    · rintro ⟨d', h2, _, name, h3, h4⟩
      exact ⟨i, d, d', rfl, hd, h2, name, h3, h4⟩
  · rw [b6]
    exact ⟨(queryCtx_nodup doc schema).2 _, usages_around doc schema hd he⟩
  · rw [b1]; unfold Ctx.typeDefinition; rw [queryCtx_sdl]
  · rw [b2]; unfold Ctx.directiveDefinition; rw [queryCtx_sdl]
  · rw [b4, queryCtx_operations]; rfl

/-- There is a context at each point of the walk. -/
theorem C78_exists : (∀ done rest, walkDocument (newSDLContext doc schema).doc = done ++ rest →
      ∃ c, done.foldl (fun o e => Walker.on (rulesWalker rs) e o) (.ret (newSDLContext doc schema)) = .ret c ∧ Spec.DuringValidateSDL doc schema rs c) ∧
    ((∀ r ∈ rs, r.sdlOnly = false) → ∃ c0, newContext doc schema = .ret c0 ∧ ∀ done rest, walkDocument c0.doc = done ++ rest →
      ∃ c, done.foldl (fun o e => Walker.on (rulesWalker rs) e o) (.ret c0) = .ret c ∧ Spec.DuringValidate doc schema rs c) := by
  refine ⟨fun done rest h => ?_, fun hr => ⟨_, newContext_ret doc schema, fun done rest h => ?_⟩⟩
  · obtain ⟨c', h3, _⟩ := base_during rs done (newSDLContext doc schema) (fun r _ => sdlCtx_ready doc schema r)
    exact ⟨c', h3, done, rest, h, h3⟩
  · obtain ⟨c', h3, _⟩ := base_during rs done (queryCtx doc schema) (fun r hr' => queryCtx_ready doc schema (hr r hr'))
    exact ⟨c', h3, _, done, rest, newContext_ret doc schema, h, h3⟩

end

/-- A schema with a type `A`, extended by a document that defines `A` again and `B` twice. -/
example (l : Location) : ∃ c, Spec.DuringValidateSDL
      { defs := [⟨l, .type { name := b!"A", kind := .scalar }⟩, ⟨l, .type { name := b!"B", kind := .scalar }⟩, ⟨l, .type { name := b!"B", kind := .union }⟩] }
      (some { types := [(b!"A", { name := b!"A", kind := .enum })] }) [.possibleTypeExtensions, .uniqueOperationTypes] c ∧
    c.typeDefinition b!"A" = .ret (some { name := b!"A", kind := .enum }, true) ∧
    c.typeDefinition b!"B" = .ret (some { name := b!"B", kind := .scalar }, false) ∧
    c.typeDefinition b!"C" = .ret (none, false) := by
  obtain ⟨c, _, h⟩ := (C78_exists
    { defs := [⟨l, .type { name := b!"A", kind := .scalar }⟩, ⟨l, .type { name := b!"B", kind := .scalar }⟩, ⟨l, .type { name := b!"B", kind := .union }⟩] }
    (some { types := [(b!"A", { name := b!"A", kind := .enum })] }) [.possibleTypeExtensions, .uniqueOperationTypes]).1 _ [] (List.append_nil _).symm
  obtain ⟨h1, _⟩ := C78_sdl _ _ _ h
  exact ⟨c, h, h1 _, h1 _, h1 _⟩

/-- A query that spreads a fragment that is there twice. -/
example (l : Location) : ∃ c, Spec.DuringValidate
      { defs := [⟨l, .op ⟨.query, [], [], [], [.spread b!"F" []]⟩⟩, ⟨l, .frag ⟨b!"F", .named b!"T" false, [], []⟩⟩, ⟨l, .frag ⟨b!"F", .named b!"U" false, [], []⟩⟩] }
      none [.noUnusedVariables] c ∧ c.fragment b!"F" = some ⟨b!"F", .named b!"U" false, [], []⟩ ∧ c.fragment b!"G" = none := by
  obtain ⟨c0, _, h⟩ := (C78_exists
    { defs := [⟨l, .op ⟨.query, [], [], [], [.spread b!"F" []]⟩⟩, ⟨l, .frag ⟨b!"F", .named b!"T" false, [], []⟩⟩, ⟨l, .frag ⟨b!"F", .named b!"U" false, [], []⟩⟩] }
    none [.noUnusedVariables]).2 (by decide)
  obtain ⟨c, _, h⟩ := h _ [] (List.append_nil _).symm
  obtain ⟨h1, _⟩ := C78_query _ _ _ (by decide) h
  exact ⟨c, h, h1 _, h1 _⟩

end GQL
