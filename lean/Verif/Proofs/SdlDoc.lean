/-
`ParseSDLDoc` step by step: all errors of `ValidateSDL`, and the schema that `BuildSchema` makes of an accepted document.
-/
import Verif.Proofs.SchemaBuild
import Verif.Proofs.Named
import Verif.Props.C45
import Verif.Props.C50

namespace GQL
open Classical

/-! ### Merging -/

theorem joined_eq {α : Type} (l m : List α) : joined l m = Spec.after l m := by cases l <;> rfl

theorem after_after {α : Type} (l m k : List α) : Spec.after (Spec.after l m) k = Spec.after l (m ++ k) := by
  cases l with
  | nil => rfl
  | cons a l => simp [Spec.after]

theorem after_nil {α : Type} (l : List α) : Spec.after l [] = l := by cases l <;> simp [Spec.after]

theorem mergeSchemaExts_eq (es : List SchemaDef) : ∀ d : SchemaDef, mergeSchemaExts d es =
    { dirs := Spec.after d.dirs (es.flatMap (·.dirs)), ops := Spec.after d.ops (es.flatMap (·.ops)) } := by
  induction es with
  | nil => intro d; simp [mergeSchemaExts, after_nil]
  | cons e es ih =>
    intro d
    refine (ih _).trans ?_
    simp only [joined_eq, after_after, List.flatMap_cons]

theorem mergeTypeExt_eq {t e : TypeDef} (hk : e.kind = t.kind) (ht : Spec.Shape t) : mergeTypeExt t e = Spec.extendedOwn t [e] := by
  unfold mergeTypeExt Spec.extendedOwn
  simp only [joined_eq, List.flatMap_cons, List.flatMap_nil, List.append_nil]
  have h1 := ht.ifaces
  have h2 := ht.fields
  have h3 := ht.members
  have h4 := ht.values
  have h5 := ht.inputs
  obtain ⟨desc, name, kind, ifaces, dirs, fields, members, values, inputs⟩ := t
  dsimp only at hk h1 h2 h3 h4 h5 ⊢
  rw [hk]
  cases kind <;> simp at h1 h2 h3 h4 h5 <;> subst_vars <;> rfl

theorem shape_extended {t : TypeDef} (es : List TypeDef) (ht : Spec.Shape t) : Spec.Shape (Spec.extendedOwn t es) := by
  refine ⟨ht.named, fun h => ?_, fun h h' => ?_, fun h => ?_, fun h => ?_, fun h => ?_⟩
  · show Spec.after _ _ = _; rw [ht.ifaces h]; rfl
  · show Spec.after _ _ = _; rw [ht.fields h h']; rfl
  · show Spec.after _ _ = _; rw [ht.members h]; rfl
  · show Spec.after _ _ = _; rw [ht.values h]; rfl
  · show Spec.after _ _ = _; rw [ht.inputs h]; rfl

theorem mergeAll_eq : ∀ (es : List TypeDef) (t : TypeDef), (∀ e ∈ es, e.kind = t.kind) → Spec.Shape t → es.foldl mergeTypeExt t = Spec.extendedOwn t es
  | [], t, _, _ => by simp [Spec.extendedOwn, after_nil]
  | e :: es, t, hk, ht => by
    rw [List.foldl_cons, mergeTypeExt_eq (hk e (by simp)) ht, mergeAll_eq es (Spec.extendedOwn t [e]) (fun x hx => hk x (by simp [hx])) (shape_extended [e] ht)]
    simp only [Spec.extendedOwn, after_after, List.flatMap_cons, List.flatMap_nil, List.append_nil]

/-! ### Root types -/

theorem rootFold (k : OpKind) (root : Schema → Option Ty) (hk : ∀ sch o, root (setRootType sch o) = if o.op = k then some o.type else root sch) :
    ∀ (l : List OpTypeDef) (sch : Schema), root (l.foldl setRootType sch) = (Spec.rootOf l k).or (root sch)
  | [], sch => rfl
  | o :: l, sch => by
    rw [List.foldl_cons, rootFold k root hk l, hk]
    unfold Spec.rootOf
    rw [List.reverse_cons, List.find?_append]
    cases List.find? (fun o => decide (o.op = k)) l.reverse with
    | some x => rfl
    | none =>
      by_cases h : o.op = k <;> simp [h]

theorem rootFold_query (l : List OpTypeDef) (sch : Schema) : (l.foldl setRootType sch).queryType = (Spec.rootOf l .query).or sch.queryType :=
  rootFold .query (·.queryType) (fun sch o => by unfold setRootType; cases h : o.op <;> simp) l sch
theorem rootFold_mutation (l : List OpTypeDef) (sch : Schema) : (l.foldl setRootType sch).mutationType = (Spec.rootOf l .mutation).or sch.mutationType :=
  rootFold .mutation (·.mutationType) (fun sch o => by unfold setRootType; cases h : o.op <;> simp) l sch
theorem rootFold_subscription (l : List OpTypeDef) (sch : Schema) :
    (l.foldl setRootType sch).subscriptionType = (Spec.rootOf l .subscription).or sch.subscriptionType :=
  rootFold .subscription (·.subscriptionType) (fun sch o => by unfold setRootType; cases h : o.op <;> simp) l sch

/-! ### `ValidateSDL` -/

/-- The built-in types of the code are those of the specification. -/
theorem builtInTypes_eq : Spec.builtInTypes = specifiedTypes := rfl

/-- The built-in directives of the code are those of the specification. -/
theorem builtInDirectives_eq : Spec.builtInDirectives = specifiedDirectives := rfl

/-- All errors that `ValidateSDL` reports, with the enabled rules. -/
noncomputable def Spec.sdlErrors (schema : Option Schema) (doc : Document) : List GErr :=
  rootErrors schema [] (rootBlocks doc.defs) ++ (repeatedDirectiveErrors doc ++ (repeatedArgumentErrors doc ++ (repeatedInputFieldErrors doc ++
  (((directives doc).flatMap fun d => match directiveDef schema (directiveDefs doc.defs) d.name with
      | none => []
      | some dd => (reportedArguments dd d.args).map fun a => unknownDirectiveArgError a.name d.name) ++
  (directiveErrors schema (directiveDefs doc.defs) doc ++ (unknownTypeErrors schema (typeDefs doc.defs) doc ++
  (((definedNames doc).filter fun n => UnderscoreEarly n).map nameStartsWithTwoUnderscoresError ++
  (extensionErrors schema doc ++ (missingArgumentErrors schema (directiveDefs doc.defs) doc ++ uniquenessErrors schema doc)))))))))

theorem sdlErrs_perm {r : Rule} {doc : Document} {schema : Option Schema} {es : List GErr} (h : SDLErrors r doc schema es) :
    (r.errsAll (newSDLContext doc schema) (Spec.docTree false (newSDLContext doc schema).doc).trace).Perm es := by
  obtain ⟨c, c0, X, h1, h2, h3, h4⟩ := h
  obtain ⟨c', X', g1, g2, g3⟩ := validateSDL_one doc schema r
  rw [validateSDL_nil] at h2
  cases h2
  rw [g1] at h1
  cases h1
  rw [g2] at h3
  rw [List.append_cancel_right h3] at g3
  exact g3.symm.trans h4

theorem validateSDL_all (doc : Document) (schema : Option Schema) : ∃ c : Ctx, validateSDL doc schema (rulesWalker specifiedSDL) = .ret c ∧
    c.errors.Perm (Spec.sdlErrors schema doc) ∧ c.base = (newSDLContext doc schema).base := by
  obtain ⟨c, X, h1, h2, h3, h4⟩ := walk_rules specifiedSDL (by decide) (newSDLContext doc schema) (fun r _ => sdlCtx_ready doc schema r)
    (newSDLContext doc schema).doc
  refine ⟨c, h1, ?_, h4⟩
  rw [h2]
  have h0 : (newSDLContext doc schema).errors.Perm (Spec.uniquenessErrors schema doc) := by
    obtain ⟨c0, s, e1, e2, -⟩ := C40_sdl doc schema
    rw [validateSDL_nil] at e1
    cases e1
    exact e2
  refine (((List.reverse_perm X).trans h3).append h0).trans ?_
  unfold specifiedSDL
  simp only [List.flatMap_cons, List.flatMap_nil, List.append_nil, List.append_assoc]
  unfold Spec.sdlErrors
  refine (sdlErrs_perm (C45_exact doc schema)).append ?_
  refine (sdlErrs_perm (C36_sdl doc schema)).append ?_
  refine (sdlErrs_perm (C37_sdl doc schema)).append ?_
  refine (sdlErrs_perm (C38_sdl doc schema)).append ?_
  refine (sdlErrs_perm (C41_exact doc schema)).append ?_
  refine (sdlErrs_perm (C35_sdl doc schema)).append ?_
  refine (sdlErrs_perm (C32_sdl doc schema)).append ?_
  refine (sdlErrs_perm (C44_exact doc schema)).append ?_
  refine (sdlErrs_perm (C43_sdl doc schema)).append ?_
  exact (sdlErrs_perm (C42_sdl doc schema)).append (.refl _)

/-! ### `BuildSchema` -/

theorem extensions_ok {schema : Option Schema} {doc : Document} (h : Spec.sdlErrors schema doc = []) : ∀ e ∈ Spec.typeExts doc.defs,
    ∃ t, Spec.extendedType schema (Spec.typeDefs doc.defs) e.name = some t ∧ e.kind = t.kind := by
  intro e he
  have h9 : Spec.extensionErrors schema doc = [] := by
    unfold Spec.sdlErrors at h
    simp only [List.append_eq_nil_iff] at h
    exact h.2.2.2.2.2.2.2.2.1
  unfold Spec.extensionErrors at h9
  rw [List.flatMap_eq_nil_iff] at h9
  have := h9 e he
  split at this
  · cases this
  · rename_i t ht
    split at this
    · rename_i hk; exact ⟨t, ht, hk⟩
    · cases this

theorem lookup_moreExts (l : List TypeDef) : (moreExts none l).getD [] = l := by cases l <;> rfl

/-- The schema that is built for a document that `ValidateSDL` accepts. -/
theorem built {pf : Bytes → Option Nat} {input : Bytes} {doc : Document} (hp : parse pf input = .ok doc) (schema : Option Schema)
    (he : Spec.sdlErrors schema doc = []) {c : Ctx} (hb : c.base = (newSDLContext doc schema).base) (ord : BuildOrders) :
    ∃ b, buildSchema ord c = .ret { c with schema := b } ∧ Spec.Built schema doc.defs b := by
  have hs : c.schema = schema.getD {} := (congrArg Ctx.schema hb).trans (sdlCtx_schema doc schema)
  have hsdl : c.sdl.map SDLContext.noFlags = some (sdlOf doc schema).noFlags := congrArg Ctx.sdl hb
  cases hc : c.sdl with
  | none => rw [hc] at hsdl; cases hsdl
  | some s =>
    rw [hc, Option.map_some, Option.some.injEq] at hsdl
    have a1 : s.types = (sdlOf doc schema).types := by have := congrArg SDLContext.types hsdl; exact this
    have a2 : s.directives = (sdlOf doc schema).directives := by have := congrArg SDLContext.directives hsdl; exact this
    have a3 : s.typeExts = (sdlOf doc schema).typeExts := by have := congrArg SDLContext.typeExts hsdl; exact this
    have a4 : s.schemaDef = (sdlOf doc schema).schemaDef := by have := congrArg SDLContext.schemaDef hsdl; exact this
    have a5 : s.schemaExts = (sdlOf doc schema).schemaExts := by have := congrArg SDLContext.schemaExts hsdl; exact this
    have a6 : s.isExtending = (sdlOf doc schema).isExtending := by have := congrArg SDLContext.isExtending hsdl; exact this
    rw [sdlOf_extending] at a6
    rw [sdlOf_schemaDef] at a4
    rw [sdlOf_schemaExts] at a5
    obtain ⟨n1, n2, n3⟩ := sdlOf_nodup doc schema
    have hT : Spec.schemaTypes schema = (schema.getD {}).types := by cases schema <;> rfl
    have hD : Spec.schemaDirectives schema = (schema.getD {}).directives := by cases schema <;> rfl
    have htgt : ∀ n, extTarget c.schema s n = Spec.extendedType schema (Spec.typeDefs doc.defs) n := by
      intro n
      unfold extTarget Spec.extendedType
      rw [a1, sdlOf_types, a6, hs, hT]
      cases schema with
      | none => simp
      | some x =>
        simp only [Option.isSome_some, ↓reduceIte, Option.getD_some]
        by_cases hx : (x.types.lookup n).isSome
        · obtain ⟨y, hy⟩ := Option.isSome_iff_exists.1 hx
          simp only [hy]
        · have hy := Option.not_isSome_iff_eq_none.1 hx
          rw [if_neg hx]; simp only [hy]
    obtain ⟨b1, b2, b3, b4, b5, b6, b7, b8⟩ := buildSchemaOf_spec ord c.schema s (a1 ▸ n1) (a2 ▸ n2) (a3 ▸ n3) (by
      intro p hp
      rw [htgt]
      rw [a3] at hp
      have hl : ((sdlOf doc schema).typeExts.lookup p.1).isSome := (keys_lookup _ _).1 (List.mem_map.2 ⟨p, hp, rfl⟩)
      rw [sdlOf_typeExts] at hl
      cases hf : (Spec.typeExts doc.defs).filter (fun t => t.name == p.1) with
      | nil => rw [hf] at hl; cases hl
      | cons e l =>
        have hm : e ∈ (Spec.typeExts doc.defs).filter (fun t => t.name == p.1) := by rw [hf]; simp
        obtain ⟨hm1, hm2⟩ := List.mem_filter.1 hm
        obtain ⟨t, ht, -⟩ := extensions_ok he e hm1
        rw [beq_iff_eq] at hm2
        rw [← hm2, ht]; rfl) (by
      intro hext n hn
      rw [a1, sdlOf_types, ← hs, if_pos hn])
    refine ⟨buildSchemaOf ord c.schema s, by rw [buildSchema, hc], ?_⟩
    have hdef : ((s.schemaDef.map fun d => mergeSchemaExts d s.schemaExts).getD defaultSchemaDef) = Spec.schemaDefinition schema doc.defs := by
      rw [a4, a5]
      unfold Spec.schemaDefinition
      generalize (if schema.isSome then none else (Spec.schemaDefs doc.defs).head?) = o
      cases o with
      | none => rfl
      | some d => simp only [Option.map_some, Option.getD_some, mergeSchemaExts_eq]
    rw [hdef] at b5 b6 b7 b8
    have hrt : ∀ f : Schema → Option Ty, f {} = none → f c.schema = schema.bind f := by
      intro f hf
      rw [hs]
      cases schema with
      | none => exact hf
      | some x => rfl
    refine ⟨b1, b2, fun n => ?_, fun n => ?_, b5, ?_, ?_, ?_⟩
    · rw [b3, a1, a3, a6, sdlOf_types, sdlOf_typeExts, hT]
      by_cases h : ((schema.getD {}).types.lookup n).isSome
      · rw [if_pos h, if_pos h]
        cases schema with
        | none => cases h
        | some x => rfl
      · rw [if_neg h, if_neg h]
        rw [builtInTypes_eq]
        cases hf : (Spec.typeDefs doc.defs).find? (fun t => t.name == n) with
        | none => simp
        | some t =>
          simp only [Option.map_some, Option.some_or, Option.some.injEq]
          unfold withExts
          rw [lookup_moreExts]
          refine mergeAll_eq _ _ (fun e hem => ?_) (parse_types hp t (List.mem_of_find?_eq_some hf))
          obtain ⟨hm1, hm2⟩ := List.mem_filter.1 hem
          obtain ⟨t', ht', hk⟩ := extensions_ok he e hm1
          rw [beq_iff_eq] at hm2
          rw [hm2] at ht'
          unfold Spec.extendedType at ht'
          rw [hT, Option.not_isSome_iff_eq_none.1 h] at ht'
          dsimp only at ht'
          rw [hf] at ht'
          rw [hk]
          exact congrArg TypeDef.kind (Option.some.inj ht').symm
    · rw [b4, a2, a6, sdlOf_dirs, hD]
      by_cases h : ((schema.getD {}).directives.lookup n).isSome
      · rw [if_pos h, if_pos h]
        cases schema with
        | none => cases h
        | some x => rfl
      · rw [if_neg h, if_neg h]
        cases (Spec.directiveDefs doc.defs).find? (fun t => t.name == n) <;> rfl
    · rw [b6, rootFold_query, hrt (·.queryType) rfl]
    · rw [b7, rootFold_mutation, hrt (·.mutationType) rfl]
    · rw [b8, rootFold_subscription, hrt (·.subscriptionType) rfl]

theorem Spec.Built.wellFormed {pf : Bytes → Option Nat} {input : Bytes} {doc : Document} (hp : parse pf input = .ok doc) {schema : Option Schema}
    {b : Schema} (h : Spec.Built schema doc.defs b) : Spec.WellFormed b := by
  refine ⟨h.typesOnce, h.directivesOnce, ?_⟩
  rw [h.types]
  split
  · rfl
  · cases hf : (Spec.typeDefs doc.defs).find? (fun t => t.name == []) with
    | none => dsimp only; split <;> rfl
    | some t =>
      have := (parse_types hp t (List.mem_of_find?_eq_some hf)).named
      have h2 := List.find?_some hf
      simp only [beq_iff_eq] at h2
      exact absurd h2 this

/-! ### `ParseSDLDoc` -/

/-- `ParseSDLDoc` returns `r`, some time. -/
def SDLDocReturns (pf : Bytes → Option Nat) (ord : Orders) (input : Bytes) (schema : Option Schema) (r : SDLResult) : Prop :=
  ∃ fuel, parseSDLDoc pf fuel ord input schema = .ret r

section
variable {pf : Bytes → Option Nat} {ord : Orders} {input : Bytes} {schema : Option Schema}

theorem sdlDoc_parse_error {e : PErr} (hp : parse pf input = .err e) (fuel : Nat) :
    parseSDLDoc pf fuel ord input schema = .ret { schema := none, errors := none, err := some e, after := schema } := by
  unfold parseSDLDoc; rw [hp]

theorem sdlDoc_rejected {doc : Document} (hp : parse pf input = .ok doc) (he : Spec.sdlErrors schema doc ≠ []) (fuel : Nat) :
    ∃ es, parseSDLDoc pf fuel ord input schema = .ret { schema := none, errors := some es, err := none, after := schema } ∧
      es.Perm (Spec.sdlErrors schema doc) := by
  obtain ⟨c, h1, h2, -⟩ := validateSDL_all doc schema
  refine ⟨c.errors, ?_, h2⟩
  unfold parseSDLDoc
  rw [hp]
  dsimp only
  rw [h1]
  have : c.errors.length > 0 := by
    rw [h2.length_eq]
    exact List.length_pos_iff.2 he
  show (if c.errors.length > 0 then _ else _) = _
  rw [if_pos this]

/-- The last step, on the schema that has been built. -/
def lastStep (fuel : Nat) (run : RunOrders) (c : Ctx) (b : Schema) (after : Option Schema) : Out SDLResult :=
  (validateSchema fuel run c b).bind fun c' =>
    if c'.errors.length > 0 then .ret { schema := none, errors := some c'.errors, err := none, after := after }
    else .ret { schema := some c'.schema, errors := none, err := none, after := after }

theorem sdlDoc_built {doc : Document} (hp : parse pf input = .ok doc) (he : Spec.sdlErrors schema doc = []) :
    ∃ (c : Ctx) (b : Schema), Spec.Built schema doc.defs b ∧ Spec.WellFormed b ∧ c.errors = [] ∧ c.schema = b ∧
      ∀ fuel, parseSDLDoc pf fuel ord input schema = lastStep fuel ord.run c b (schema.map fun _ => b) := by
  obtain ⟨c, h1, h2, h3⟩ := validateSDL_all doc schema
  rw [he] at h2
  have h2 := h2.eq_nil
  obtain ⟨b, hb, hB⟩ := built hp schema he h3 ord.build
  refine ⟨{ c with schema := b }, b, hB, hB.wellFormed hp, h2, rfl, fun fuel => ?_⟩
  unfold parseSDLDoc
  rw [hp]
  dsimp only
  rw [h1]
  show (if c.errors.length > 0 then _ else _) = _
  rw [if_neg (by rw [h2]; decide), hb]
  unfold lastStep
  cases schema <;> rfl

/-- Everything `ParseSDLDoc` can do with a document that `ValidateSDL` accepts. -/
theorem sdlDoc_cases {doc : Document} (hp : parse pf input = .ok doc) (he : Spec.sdlErrors schema doc = []) :
    ∃ b : Schema, Spec.Built schema doc.defs b ∧ Spec.WellFormed b ∧
      ((∃ r, SDLDocReturns pf ord input schema r) ↔ Spec.Complete b ∧ Spec.Settled b) ∧
      (Spec.Complete b → ∀ fuel, parseSDLDoc pf fuel ord input schema ≠ .panic) ∧
      ∀ r, SDLDocReturns pf ord input schema r → r.err = none ∧ r.after = (schema.map fun _ => b) ∧
        ((Spec.schemaErrors b = [] ∧ r.schema = some b ∧ r.errors = none) ∨
         (Spec.schemaErrors b ≠ [] ∧ r.schema = none ∧ ∃ es, r.errors = some es ∧ es.Perm (Spec.schemaErrors b))) := by
  obtain ⟨c, b, hB, hW, hce, hcs, hl⟩ := sdlDoc_built (ord := ord) hp he
  have hret : ∀ fuel r, parseSDLDoc pf fuel ord input schema = .ret r → ∃ c', validateSchema fuel ord.run c b = .ret c' ∧
      r = if c'.errors.length > 0 then { schema := none, errors := some c'.errors, err := none, after := schema.map fun _ => b }
        else { schema := some c'.schema, errors := none, err := none, after := schema.map fun _ => b } := by
    intro fuel r h
    rw [hl, lastStep] at h
    cases hv : validateSchema fuel ord.run c b with
    | panic => rw [hv] at h; cases h
    | oof => rw [hv] at h; cases h
    | ret c' =>
      rw [hv] at h
      refine ⟨c', rfl, ?_⟩
      change (if c'.errors.length > 0 then _ else _) = _ at h
      split at h <;> rename_i hx
      · rw [if_pos hx]; exact (Out.ret.inj h).symm
      · rw [if_neg hx]; exact (Out.ret.inj h).symm
  refine ⟨b, hB, hW, ⟨?_, ?_⟩, ?_, ?_⟩
  · rintro ⟨r, fuel, h⟩
    obtain ⟨c', hv, -⟩ := hret fuel r h
    exact (C53_exact hW ord.run c).1 ⟨c', fuel, hv⟩
  · intro h
    obtain ⟨c', fuel, hv⟩ := (C53_exact hW ord.run c).2 h
    refine ⟨if c'.errors.length > 0 then { schema := none, errors := some c'.errors, err := none, after := schema.map fun _ => b }
        else { schema := some c'.schema, errors := none, err := none, after := schema.map fun _ => b }, fuel, ?_⟩
    rw [hl, lastStep, hv]
    show (if c'.errors.length > 0 then _ else _) = _
    split <;> rfl
  · intro hc fuel h
    have := C62_validateSchema_safe hW hc ord.run c fuel
    rw [hl, lastStep] at h
    cases hv : validateSchema fuel ord.run c b with
    | panic => exact this hv
    | oof => rw [hv] at h; cases h
    | ret c' =>
      rw [hv] at h
      change (if c'.errors.length > 0 then _ else _) = _ at h
      split at h <;> cases h
  · rintro r ⟨fuel, h⟩
    obtain ⟨c', hv, hr⟩ := hret fuel r h
    obtain ⟨e1, e2⟩ := C50_all_errors hW ⟨fuel, hv⟩
    rw [hce, List.append_nil] at e1
    have hsc : c'.schema = b := (congrArg Ctx.schema e2).trans hcs
    split at hr <;> rename_i hx
    · rw [hr]
      refine ⟨rfl, rfl, .inr ⟨?_, rfl, _, rfl, e1⟩⟩
      intro h0
      rw [e1.length_eq, h0] at hx
      cases hx
    · rw [hr]
      refine ⟨rfl, rfl, .inl ⟨?_, congrArg some hsc, rfl⟩⟩
      have h0 : c'.errors = [] := List.eq_nil_of_length_eq_zero (by omega)
      rw [h0] at e1
      exact e1.symm.eq_nil

end

end GQL
