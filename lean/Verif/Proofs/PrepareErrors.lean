/-
The errors of `PrepareContextSDL`, and the context it makes for a document.
-/
import Verif.Proofs.Prepare

namespace GQL

/-- The names that the schema has. -/
def inSchema {β : Type} (m : GMap β) (n : Bytes) : Bool := (m.lookup n).isSome

/-- The errors about the definitions of types (or directives) with these names. -/
def nameErrs {β : Type} (m : GMap β) (existed duplicate : Bytes → GErr) (known names : List Bytes) : List GErr :=
  (names.filter (inSchema m)).map existed ++ (repeats known (names.filter fun n => !inSchema m n)).map duplicate

/-- The errors about schema definitions. -/
def schemaErrs (ext seen : Bool) (k : Nat) : List GErr :=
  if ext then List.replicate k canNotDefineSchemaWithinExtensionError
  else List.replicate (k - if seen then 0 else 1) schemaDefinitionNotAloneError

theorem schemaErrs_zero (ext seen : Bool) : schemaErrs ext seen 0 = [] := by cases ext <;> simp [schemaErrs]

theorem nameErrs_nil {β : Type} (m : GMap β) (e d : Bytes → GErr) (k : List Bytes) : nameErrs m e d k [] = [] := rfl

theorem nameErrs_cons {β : Type} (m : GMap β) (e d : Bytes → GErr) (k : List Bytes) (n : Bytes) (ns : List Bytes) :
    (nameErrs m e d k (n :: ns)).Perm (if inSchema m n then e n :: nameErrs m e d k ns
      else if k.contains n then d n :: nameErrs m e d k ns else nameErrs m e d (n :: k) ns) := by
  unfold nameErrs
  simp only [List.filter_cons]
  cases h : inSchema m n
  · simp only [Bool.false_eq_true, ↓reduceIte, Bool.not_false, repeats]
    split
    · rw [List.map_cons]; exact List.perm_middle
    · exact .refl _
  · simp

theorem prepare_errors : ∀ (ds : List (Definition × Nat)) (p : Ctx × SDLContext), ∃ X : List GErr,
    (prepare ds p).1.errors = X ++ p.1.errors ∧
    X.Perm (nameErrs p.1.schema.types existedTypeNameError duplicateTypeNameError (p.2.types.map (·.1)) ((Spec.typeDefs (ds.map (·.1))).map (·.name)) ++
      nameErrs p.1.schema.directives existedDirectiveNameError duplicateDirectiveNameError (p.2.directives.map (·.1))
        ((Spec.directiveDefs (ds.map (·.1))).map (·.name)) ++
      schemaErrs p.2.isExtending p.2.schemaDef.isSome (Spec.schemaDefs (ds.map (·.1))).length)
  | [], p => ⟨[], rfl, by simp [Spec.typeDefs, Spec.directiveDefs, Spec.schemaDefs, nameErrs_nil, schemaErrs_zero]⟩
  | ((⟨loc, b⟩, i) :: ds), p => by
    obtain ⟨X, h1, h2⟩ := prepare_errors ds (prepareStep p.1 p.2 (⟨loc, b⟩, i))
    obtain ⟨k1, _, k3, _⟩ := prepareStep_keeps p (⟨loc, b⟩, i)
    rw [k1, k3] at h2
    have h1' : (prepare ((⟨loc, b⟩, i) :: ds) p).1.errors = X ++ (prepareStep p.1 p.2 (⟨loc, b⟩, i)).1.errors := h1
    -- a definition that adds no error and changes none of the three collections
    have triv : (prepareStep p.1 p.2 (⟨loc, b⟩, i)).1.errors = p.1.errors → (prepareStep p.1 p.2 (⟨loc, b⟩, i)).2.types = p.2.types →
        (prepareStep p.1 p.2 (⟨loc, b⟩, i)).2.directives = p.2.directives → (prepareStep p.1 p.2 (⟨loc, b⟩, i)).2.schemaDef = p.2.schemaDef →
        Spec.typeDefs (((⟨loc, b⟩, i) :: ds).map (·.1)) = Spec.typeDefs (ds.map (·.1)) →
        Spec.directiveDefs (((⟨loc, b⟩, i) :: ds).map (·.1)) = Spec.directiveDefs (ds.map (·.1)) →
        Spec.schemaDefs (((⟨loc, b⟩, i) :: ds).map (·.1)) = Spec.schemaDefs (ds.map (·.1)) →
        ∃ X : List GErr, (prepare ((⟨loc, b⟩, i) :: ds) p).1.errors = X ++ p.1.errors ∧
          X.Perm (nameErrs p.1.schema.types existedTypeNameError duplicateTypeNameError (p.2.types.map (·.1))
              ((Spec.typeDefs (((⟨loc, b⟩, i) :: ds).map (·.1))).map (·.name)) ++
            nameErrs p.1.schema.directives existedDirectiveNameError duplicateDirectiveNameError (p.2.directives.map (·.1))
              ((Spec.directiveDefs (((⟨loc, b⟩, i) :: ds).map (·.1))).map (·.name)) ++
            schemaErrs p.2.isExtending p.2.schemaDef.isSome (Spec.schemaDefs (((⟨loc, b⟩, i) :: ds).map (·.1))).length) := by
      intro e1 e2 e3 e4 e5 e6 e7
      rw [e2, e3, e4] at h2
      rw [e5, e6, e7]
      exact ⟨X, by rw [h1', e1], h2⟩
    cases b with
    | type t =>
      simp only [prepareStep] at h1' h2
      have hd : Spec.directiveDefs (((⟨loc, .type t⟩, i) :: ds).map (·.1)) = Spec.directiveDefs (ds.map (·.1)) := rfl
      have hs : Spec.schemaDefs (((⟨loc, .type t⟩, i) :: ds).map (·.1)) = Spec.schemaDefs (ds.map (·.1)) := rfl
      have ht : Spec.typeDefs (((⟨loc, .type t⟩, i) :: ds).map (·.1)) = t :: Spec.typeDefs (ds.map (·.1)) := rfl
      rw [hd, hs, ht, List.map_cons]
      have hc := nameErrs_cons p.1.schema.types existedTypeNameError duplicateTypeNameError (p.2.types.map (·.1)) t.name
        ((Spec.typeDefs (ds.map (·.1))).map (·.name))
      by_cases a1 : (p.1.schema.types.lookup t.name).isSome
      · rw [if_pos a1] at h1' h2
        rw [if_pos (show inSchema _ _ = true from a1)] at hc
        refine ⟨X ++ [existedTypeNameError t.name], by rw [h1']; simp [Ctx.addError], ?_⟩
        refine (List.perm_append_singleton _ _).trans ?_
        exact ((h2.cons _).trans (.of_eq (by simp))).trans ((hc.symm.append_right _).append_right _)
      · rw [if_neg a1] at h1' h2
        rw [if_neg (show ¬ inSchema _ _ = true from a1)] at hc
        by_cases a2 : (p.2.types.lookup t.name).isSome
        · rw [if_pos a2] at h1' h2
          rw [if_pos (List.contains_iff_mem.2 ((keys_lookup _ _).2 a2))] at hc
          refine ⟨X ++ [duplicateTypeNameError t.name], by rw [h1']; simp [Ctx.addError], ?_⟩
          refine (List.perm_append_singleton _ _).trans ?_
          exact ((h2.cons _).trans (.of_eq (by simp))).trans ((hc.symm.append_right _).append_right _)
        · rw [if_neg a2] at h1' h2
          rw [if_neg (fun h => a2 ((keys_lookup _ _).1 (List.contains_iff_mem.1 h)))] at hc
          refine ⟨X, h1', h2.trans (((List.Perm.of_eq ?_).trans hc.symm).append_right _ |>.append_right _)⟩
          unfold nameErrs
          congr 2
          refine repeats_congr _ _ _ fun n => ?_
          rw [keys_lookup, lookup_mapSet, List.mem_cons, keys_lookup]
          by_cases e : n = t.name
          · simp [e]
          · have : (n == t.name) = false := by simpa using e
            simp [this, e]
    | directive t =>
      simp only [prepareStep] at h1' h2
      have hd : Spec.typeDefs (((⟨loc, .directive t⟩, i) :: ds).map (·.1)) = Spec.typeDefs (ds.map (·.1)) := rfl
      have hs : Spec.schemaDefs (((⟨loc, .directive t⟩, i) :: ds).map (·.1)) = Spec.schemaDefs (ds.map (·.1)) := rfl
      have ht : Spec.directiveDefs (((⟨loc, .directive t⟩, i) :: ds).map (·.1)) = t :: Spec.directiveDefs (ds.map (·.1)) := rfl
      rw [hd, hs, ht, List.map_cons]
      have hc := nameErrs_cons p.1.schema.directives existedDirectiveNameError duplicateDirectiveNameError (p.2.directives.map (·.1)) t.name
        ((Spec.directiveDefs (ds.map (·.1))).map (·.name))
      by_cases a1 : (p.1.schema.directives.lookup t.name).isSome
      · rw [if_pos a1] at h1' h2
        rw [if_pos (show inSchema _ _ = true from a1)] at hc
        refine ⟨X ++ [existedDirectiveNameError t.name], by rw [h1']; simp [Ctx.addError], ?_⟩
        refine (List.perm_append_singleton _ _).trans ?_
        refine (h2.cons _).trans (.trans ?_ ((hc.symm.append_left _).append_right _))
        simp only [List.append_assoc, List.cons_append]
        exact List.perm_middle.symm
      · rw [if_neg a1] at h1' h2
        rw [if_neg (show ¬ inSchema _ _ = true from a1)] at hc
        by_cases a2 : (p.2.directives.lookup t.name).isSome
        · rw [if_pos a2] at h1' h2
          rw [if_pos (List.contains_iff_mem.2 ((keys_lookup _ _).2 a2))] at hc
          refine ⟨X ++ [duplicateDirectiveNameError t.name], by rw [h1']; simp [Ctx.addError], ?_⟩
          refine (List.perm_append_singleton _ _).trans ?_
          refine (h2.cons _).trans (.trans ?_ ((hc.symm.append_left _).append_right _))
          simp only [List.append_assoc, List.cons_append]
          exact List.perm_middle.symm
        · rw [if_neg a2] at h1' h2
          rw [if_neg (fun h => a2 ((keys_lookup _ _).1 (List.contains_iff_mem.1 h)))] at hc
          refine ⟨X, h1', h2.trans (((List.Perm.of_eq ?_).trans hc.symm).append_left _ |>.append_right _)⟩
          unfold nameErrs
          congr 2
          refine repeats_congr _ _ _ fun n => ?_
          rw [keys_lookup, lookup_mapSet, List.mem_cons, keys_lookup]
          by_cases e : n = t.name
          · simp [e]
          · have : (n == t.name) = false := by simpa using e
            simp [this, e]
    | schema t =>
      simp only [prepareStep] at h1' h2
      have hd : Spec.typeDefs (((⟨loc, .schema t⟩, i) :: ds).map (·.1)) = Spec.typeDefs (ds.map (·.1)) := rfl
      have hs : Spec.directiveDefs (((⟨loc, .schema t⟩, i) :: ds).map (·.1)) = Spec.directiveDefs (ds.map (·.1)) := rfl
      have ht : Spec.schemaDefs (((⟨loc, .schema t⟩, i) :: ds).map (·.1)) = t :: Spec.schemaDefs (ds.map (·.1)) := rfl
      rw [hd, hs, ht, List.length_cons]
      cases a1 : p.2.isExtending
      · simp only [a1, Bool.false_eq_true, ↓reduceIte] at h1' h2
        cases a2 : p.2.schemaDef.isSome
        · simp only [a2, Bool.false_eq_true, ↓reduceIte] at h1' h2
          refine ⟨X, h1', h2.trans (.of_eq ?_)⟩
          simp [schemaErrs]
        · simp only [a2, ↓reduceIte] at h1' h2
          refine ⟨X ++ [schemaDefinitionNotAloneError], by rw [h1']; simp [Ctx.addError], ?_⟩
          refine (List.perm_append_singleton _ _).trans ((h2.cons _).trans ?_)
          simp only [schemaErrs, Bool.false_eq_true, ↓reduceIte, Nat.sub_zero, List.replicate_succ]
          exact List.perm_middle.symm
      · simp only [a1, ↓reduceIte] at h1' h2
        refine ⟨X ++ [canNotDefineSchemaWithinExtensionError], by rw [h1']; simp [Ctx.addError], ?_⟩
        refine (List.perm_append_singleton _ _).trans ((h2.cons _).trans ?_)
        simp only [schemaErrs, ↓reduceIte, List.replicate_succ]
        exact List.perm_middle.symm
    | _ => exact triv rfl rfl rfl rfl rfl rfl rfl

/-! ### The context of an SDL document -/

/-- The document once anonymous operations have been named. -/
def namedDoc (doc : Document) : Document := { doc with defs := doc.defs.map nameAnonymous }

theorem nameAnonymous_body (d : Definition) : (∃ o, d.body = .op o ∧ (nameAnonymous d).body = .op { o with name := if o.name = [] then anonName else o.name }) ∨
    nameAnonymous d = d := by
  obtain ⟨loc, b⟩ := d
  cases b <;> try exact .inr rfl
  rename_i o
  refine .inl ⟨o, rfl, ?_⟩
  unfold nameAnonymous
  dsimp only
  split <;> rfl

theorem filterMap_nameAnonymous {β : Type} (f : Definition → Option β) (h : ∀ d o, d.body = .op o → f d = none) (ds : List Definition) :
    (ds.map nameAnonymous).filterMap f = ds.filterMap f := by
  rw [List.filterMap_map]
  congr 1
  funext d
  rcases nameAnonymous_body d with ⟨o, h1, h2⟩ | h1
  · exact (h _ _ h2).trans (h _ _ h1).symm
  · exact congrArg f h1

theorem typeDefs_named (ds : List Definition) : Spec.typeDefs (ds.map nameAnonymous) = Spec.typeDefs ds :=
  filterMap_nameAnonymous _ (fun d o h => by simp [h]) ds
theorem directiveDefs_named (ds : List Definition) : Spec.directiveDefs (ds.map nameAnonymous) = Spec.directiveDefs ds :=
  filterMap_nameAnonymous _ (fun d o h => by simp [h]) ds
theorem schemaDefs_named (ds : List Definition) : Spec.schemaDefs (ds.map nameAnonymous) = Spec.schemaDefs ds :=
  filterMap_nameAnonymous _ (fun d o h => by simp [h]) ds
theorem schemaExts_named (ds : List Definition) : Spec.schemaExts (ds.map nameAnonymous) = Spec.schemaExts ds :=
  filterMap_nameAnonymous _ (fun d o h => by simp [h]) ds
theorem typeExts_named (ds : List Definition) : Spec.typeExts (ds.map nameAnonymous) = Spec.typeExts ds :=
  filterMap_nameAnonymous _ (fun d o h => by simp [h]) ds

theorem zipIdx_fst {α : Type} (l : List α) : ∀ n, (l.zipIdx n).map (·.1) = l := by
  induction l with
  | nil => intro n; rfl
  | cons a l ih => intro n; simp [List.zipIdx_cons, ih]

section
variable (doc : Document) (schema : Option Schema)

/-- The SDL context `NewSDLContext` makes. -/
def sdlOf : SDLContext :=
  (prepare (namedDoc doc).defs.zipIdx ({ doc := namedDoc doc, schema := schema.getD {} }, { isExtending := schema.isSome })).2

theorem sdlCtx_sdl : (newSDLContext doc schema).sdl = some (sdlOf doc schema) := rfl
theorem sdlCtx_doc : (newSDLContext doc schema).doc = namedDoc doc := (prepare_keeps _ _).2.1
theorem sdlCtx_schema : (newSDLContext doc schema).schema = schema.getD {} := (prepare_keeps _ _).1
theorem sdlOf_extending : (sdlOf doc schema).isExtending = schema.isSome := (prepare_keeps _ _).2.2.1
theorem sdlOf_defined : (sdlOf doc schema).defined = fun _ => false := by
  rw [sdlOf, (prepare_keeps _ _).2.2.2.2]; funext k; cases k <;> rfl

theorem sdlOf_types (n : Bytes) : (sdlOf doc schema).types.lookup n =
    if (((schema.getD {}).types).lookup n).isSome then none else (Spec.typeDefs doc.defs).find? (fun t => t.name == n) := by
  rw [sdlOf, prepare_types, zipIdx_fst]
  simp only [List.lookup_nil, Option.none_or, pickType, namedDoc, typeDefs_named]

theorem sdlOf_dirs (n : Bytes) : (sdlOf doc schema).directives.lookup n =
    if (((schema.getD {}).directives).lookup n).isSome then none else (Spec.directiveDefs doc.defs).find? (fun t => t.name == n) := by
  rw [sdlOf, prepare_dirs, zipIdx_fst]
  simp only [List.lookup_nil, Option.none_or, pickDir, namedDoc, directiveDefs_named]

theorem sdlOf_schemaDef : (sdlOf doc schema).schemaDef = if schema.isSome then none else (Spec.schemaDefs doc.defs).head? := by
  rw [sdlOf, prepare_schemaDef, zipIdx_fst]
  simp only [Option.none_or, namedDoc, schemaDefs_named]

theorem sdlOf_schemaExts : (sdlOf doc schema).schemaExts = Spec.schemaExts doc.defs := by
  rw [sdlOf, prepare_schemaExts, zipIdx_fst]
  simp only [List.nil_append, namedDoc, schemaExts_named]

theorem sdlOf_typeExts (n : Bytes) : (sdlOf doc schema).typeExts.lookup n = moreExts none ((Spec.typeExts doc.defs).filter (fun t => t.name == n)) := by
  rw [sdlOf, prepare_typeExts, zipIdx_fst]
  simp only [List.lookup_nil, namedDoc, typeExts_named]

theorem sdlCtx_errors : (newSDLContext doc schema).errors.Perm
    (nameErrs (schema.getD {}).types existedTypeNameError duplicateTypeNameError [] ((Spec.typeDefs doc.defs).map (·.name)) ++
      nameErrs (schema.getD {}).directives existedDirectiveNameError duplicateDirectiveNameError [] ((Spec.directiveDefs doc.defs).map (·.name)) ++
      schemaErrs schema.isSome false (Spec.schemaDefs doc.defs).length) := by
  obtain ⟨X, h1, h2⟩ := prepare_errors (namedDoc doc).defs.zipIdx ({ doc := namedDoc doc, schema := schema.getD {} }, { isExtending := schema.isSome })
  rw [zipIdx_fst] at h2
  simp only [namedDoc, typeDefs_named, directiveDefs_named, schemaDefs_named] at h2
  have : (newSDLContext doc schema).errors = X := h1.trans (List.append_nil X)
  rw [this]
  exact h2

end

end GQL
