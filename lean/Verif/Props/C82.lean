/-
C82 What `ParseSDLDoc` makes of a document depends neither on its layout nor on the order of its definitions.
-/
import Verif.Props.C69
import Verif.Props.C65
import Verif.Proofs.HeapCalls

namespace GQL
open Classical

/-! ### Layout -/

/-- The context with another document. -/
def Ctx.setDoc (D : Document) (c : Ctx) : Ctx := { c with doc := D }

/-- The event is about a node that holds the location of a definition. -/
def Event.located : Event → Bool
  | .enter (.document _) | .leave (.document _) | .enter (.definitions _) | .leave (.definitions _)
  | .enter (.definition _ _) | .leave (.definition _ _) => true
  | _ => false

/-- The events differ in nothing but the locations of definitions. -/
inductive SameEvents : List Event → List Event → Prop where
  | nil : SameEvents [] []
  | same (e : Event) {l l' : List Event} (h : SameEvents l l') : SameEvents (e :: l) (e :: l')
  | located {e e' : Event} {l l' : List Event} (h1 : e.located = true) (h2 : e'.located = true) (h : SameEvents l l') :
      SameEvents (e :: l) (e' :: l')

theorem SameEvents.refl : ∀ l, SameEvents l l
  | [] => .nil
  | e :: l => .same e (SameEvents.refl l)

theorem SameEvents.append {a a' b b' : List Event} (h : SameEvents a a') (h' : SameEvents b b') : SameEvents (a ++ b) (a' ++ b') := by
  induction h with
  | nil => exact h'
  | same e _ ih => exact .same e ih
  | located h1 h2 _ ih => exact .located h1 h2 ih

theorem sameEvents_def (i : Nat) (d d' : Definition) (h : d'.body = d.body) : SameEvents (walkDefinition i d) (walkDefinition i d') := by
  obtain ⟨l, b⟩ := d
  obtain ⟨l', b'⟩ := d'
  cases h
  unfold walkDefinition around
  exact .located rfl rfl ((SameEvents.refl _).append (.located rfl rfl .nil))

theorem sameEvents_defs : ∀ (i : Nat) (ds ds' : List Definition), ds'.map (·.body) = ds.map (·.body) →
    SameEvents (walkDefinitionItems i ds) (walkDefinitionItems i ds')
  | _, [], [], _ => .nil
  | i, d :: ds, d' :: ds', h => by
    simp only [List.map_cons, List.cons.injEq] at h
    exact (sameEvents_def i d d' h.1).append (sameEvents_defs (i + 1) ds ds' h.2)
  | _, [], _ :: _, h => by cases h
  | _, _ :: _, [], h => by cases h

theorem sameEvents_doc (d d' : Document) (h : d'.defs.map (·.body) = d.defs.map (·.body)) : SameEvents (walkDocument d) (walkDocument d') := by
  unfold walkDocument around
  refine .located rfl rfl (SameEvents.append ?_ (.located rfl rfl .nil))
  have := sameEvents_defs 0 d.defs d'.defs h
  generalize d.defs = ds at *
  generalize d'.defs = ds' at *
  cases ds <;> cases ds'
  · exact .nil
  · cases h
  · cases h
  · exact .located rfl rfl (this.append (.located rfl rfl .nil))

theorem setDoc_addErrors (D : Document) (c : Ctx) (es : List GErr) : (c.addErrors es).setDoc D = (c.setDoc D).addErrors es := by
  rw [Ctx.addErrors_eq, Ctx.addErrors_eq]; rfl

theorem after_setDoc (D : Document) (c : Ctx) (e : Event) : ∀ r ∈ specifiedSDL, r.after (c.setDoc D) e = (r.after c e).setDoc D := by
  intro r hr
  have hf : (c.setDoc D).flagAfter e = (c.flagAfter e).setDoc D := by
    rcases e with n | n <;> cases n <;> rfl
  have he : r.errs (c.setDoc D) e = r.errs c e := by
    simp only [specifiedSDL, List.mem_cons, List.not_mem_nil, or_false] at hr
    rcases hr with rfl | rfl | rfl | rfl | rfl | rfl | rfl | rfl | rfl | rfl <;> rfl
  unfold Rule.after
  rw [he, hf]
  cases r <;> exact (setDoc_addErrors D _ _).symm

theorem after_located (c : Ctx) (e : Event) (h : e.located = true) : ∀ r ∈ specifiedSDL, r.after c e = c := by
  intro r hr
  simp only [specifiedSDL, List.mem_cons, List.not_mem_nil, or_false] at hr
  rcases e with n | n <;> cases n <;> first | cases h | skip
  all_goals rcases hr with rfl | rfl | rfl | rfl | rfl | rfl | rfl | rfl | rfl | rfl <;> rfl

theorem afterAll_setDoc (D : Document) (e : Event) : ∀ (rs : List Rule), (∀ r ∈ rs, r ∈ specifiedSDL) → ∀ c, afterAll rs (c.setDoc D) e = (afterAll rs c e).setDoc D
  | [], _, _ => rfl
  | r :: rs, h, c => by
    show afterAll rs (r.after (c.setDoc D) e) e = (afterAll rs (r.after c e) e).setDoc D
    rw [after_setDoc D c e r (h r (by simp)), afterAll_setDoc D e rs (fun r hr => h r (by simp [hr]))]

theorem afterAll_located (e : Event) (h : e.located = true) : ∀ (rs : List Rule), (∀ r ∈ rs, r ∈ specifiedSDL) → ∀ c, afterAll rs c e = c
  | [], _, _ => rfl
  | r :: rs, hr, c => by
    show afterAll rs (r.after c e) e = c
    rw [after_located c e h r (hr r (by simp)), afterAll_located e h rs (fun r hx => hr r (by simp [hx]))]

/-- The walk with the SDL rules, from event to event. -/
theorem sdlWalk_fold : ∀ (es : List Event) (c : Ctx), (∀ r ∈ specifiedSDL, r.ready c) →
    es.foldl (fun o e => Walker.on (rulesWalker specifiedSDL) e o) (.ret c) = .ret (es.foldl (afterAll specifiedSDL) c)
  | [], _, _ => rfl
  | e :: es, c, h => by
    rw [List.foldl_cons, List.foldl_cons, on_rules _ c e h]
    exact sdlWalk_fold es _ fun r hr => (Rule.ready_congr (afterAll_base specifiedSDL c e)).2 (h r hr)

theorem sdlFold_same (D : Document) {es es' : List Event} (h : SameEvents es es') : ∀ c : Ctx,
    es'.foldl (afterAll specifiedSDL) (c.setDoc D) = (es.foldl (afterAll specifiedSDL) c).setDoc D := by
  induction h with
  | nil => intro c; rfl
  | same e _ ih =>
    intro c
    rw [List.foldl_cons, List.foldl_cons, afterAll_setDoc D e _ (fun _ h => h)]
    exact ih _
  | located h1 h2 _ ih =>
    intro c
    rw [List.foldl_cons, List.foldl_cons, afterAll_located _ h1 _ (fun _ h => h), afterAll_located _ h2 _ (fun _ h => h)]
    exact ih _

theorem prepareStep_setDoc (D : Document) (c : Ctx) (s : SDLContext) (d d' : Definition × Nat) (h : d'.1.body = d.1.body) (hi : d'.2 = d.2) :
    prepareStep (c.setDoc D) s d' = ((prepareStep c s d).1.setDoc D, (prepareStep c s d).2) := by
  obtain ⟨⟨l, b⟩, i⟩ := d
  obtain ⟨⟨l', b'⟩, i'⟩ := d'
  cases h
  cases hi
  cases b with
  | op o => rfl
  | frag f => rfl
  | schemaExt e => rfl
  | typeExt e => rfl
  | directive dd =>
    cases h1 : (c.schema.directives.lookup dd.name).isSome <;> cases h2 : (s.directives.lookup dd.name).isSome <;>
      simp [prepareStep, Ctx.setDoc, Ctx.addError, h1, h2]
  | schema sd =>
    cases h1 : s.isExtending <;> cases h2 : s.schemaDef.isSome <;> simp [prepareStep, Ctx.setDoc, Ctx.addError, h1, h2]
  | type t =>
    cases h1 : (c.schema.types.lookup t.name).isSome <;> cases h2 : (s.types.lookup t.name).isSome <;>
      simp [prepareStep, Ctx.setDoc, Ctx.addError, h1, h2]

theorem prepare_setDoc (D : Document) : ∀ (ds ds' : List Definition) (k : Nat) (c : Ctx) (s : SDLContext), ds'.map (·.body) = ds.map (·.body) →
    (ds'.zipIdx k).foldl (fun (p : Ctx × SDLContext) d => prepareStep p.1 p.2 d) (c.setDoc D, s) =
      (((ds.zipIdx k).foldl (fun (p : Ctx × SDLContext) d => prepareStep p.1 p.2 d) (c, s)).1.setDoc D,
       ((ds.zipIdx k).foldl (fun (p : Ctx × SDLContext) d => prepareStep p.1 p.2 d) (c, s)).2)
  | [], [], _, _, _, _ => rfl
  | d :: ds, d' :: ds', k, c, s, h => by
    simp only [List.map_cons, List.cons.injEq] at h
    simp only [List.zipIdx_cons, List.foldl_cons]
    rw [prepareStep_setDoc D c s (d, k) (d', k) h.1 rfl]
    exact prepare_setDoc D ds ds' (k + 1) _ _ h.2
  | [], _ :: _, _, _, _, h => by cases h
  | _ :: _, [], _, _, _, h => by cases h

theorem nameAnonymous_bodies {ds ds' : List Definition} (h : ds'.map (·.body) = ds.map (·.body)) :
    (ds'.map nameAnonymous).map (·.body) = (ds.map nameAnonymous).map (·.body) := by
  have key : ∀ l : List Definition, (l.map nameAnonymous).map (·.body) = (l.map (·.body)).map fun b => (nameAnonymous ⟨⟨0, 0⟩, b⟩).body := by
    intro l
    rw [List.map_map, List.map_map]
    refine List.map_congr_left fun d _ => ?_
    obtain ⟨loc, b⟩ := d
    cases b <;> try rfl
    rename_i o
    simp only [Function.comp, nameAnonymous]
    split <;> rfl
  rw [key, key, h]

/-- `ValidateSDL` on documents with the same bodies. -/
theorem validateSDL_bodies (d d' : Document) (schema : Option Schema) (h : d'.defs.map (·.body) = d.defs.map (·.body)) :
    ∃ (c : Ctx) (D : Document), validateSDL d schema (rulesWalker specifiedSDL) = .ret c ∧ validateSDL d' schema (rulesWalker specifiedSDL) = .ret (c.setDoc D) := by
  have h2 : (namedDoc d').defs.map (·.body) = (namedDoc d).defs.map (·.body) := nameAnonymous_bodies h
  have hc : newSDLContext d' schema = (newSDLContext d schema).setDoc (namedDoc d') := by
    have := prepare_setDoc (namedDoc d') (namedDoc d).defs (namedDoc d').defs 0 { doc := namedDoc d, schema := schema.getD {} } { isExtending := schema.isSome } h2
    have w := congrArg (fun p : Ctx × SDLContext => ({ p.1 with sdl := some p.2 } : Ctx)) this
    exact w
  refine ⟨_, namedDoc d', sdlWalk_fold _ _ fun r _ => sdlCtx_ready d schema r, (sdlWalk_fold _ _ fun r _ => sdlCtx_ready d' schema r).trans ?_⟩
  rw [sdlCtx_doc, sdlCtx_doc, hc, sdlFold_same (namedDoc d') (sameEvents_doc _ _ h2)]

theorem validateSchema_setDoc (D : Document) (fuel : Nat) (run : RunOrders) (c : Ctx) (s : Schema) :
    validateSchema fuel run (c.setDoc D) s = (validateSchema fuel run c s).bind fun c' => .ret (c'.setDoc D) := by
  obtain ⟨X, hX, _⟩ := validateDirectives_eq run.dirs s
  have key : ∀ c, validateSchema fuel run c s = (outAll (typeOut run s fuel) (run.types.arrange s.types)).bind fun es =>
      .ret (((c.addErrors (Spec.rootTypeErrs s)).addErrors X).addErrors es) := by
    intro c
    have h' := Adds.fold (f := typeStep fuel run s) (run.types.arrange s.types) (fun p _ => type_adds run s fuel p)
      (validateDirectives run.dirs (validateRootTypes c s) s)
    refine (show validateSchema fuel run c s = _ from h').trans ?_
    rw [hX, validateRootTypes_eq]
  rw [key, key]
  cases outAll (typeOut run s fuel) (run.types.arrange s.types) with
  | panic => rfl
  | oof => rfl
  | ret es =>
    show Out.ret _ = Out.ret _
    rw [setDoc_addErrors, setDoc_addErrors, setDoc_addErrors]

/-- What `ParseSDLDoc` does with a text that parses depends on the bodies of the definitions only. -/
theorem parseSDLDoc_bodies {pf : Bytes → Option Nat} {a a' : Bytes} {d d' : Document} (h : parse pf a = .ok d) (h' : parse pf a' = .ok d')
    (hb : d'.defs.map (·.body) = d.defs.map (·.body)) (fuel : Nat) (ord : Orders) (schema : Option Schema) :
    parseSDLDoc pf fuel ord a' schema = parseSDLDoc pf fuel ord a schema := by
  obtain ⟨c, D, h1, h2⟩ := validateSDL_bodies d d' schema hb
  unfold parseSDLDoc
  rw [h, h']
  dsimp only
  rw [h1, h2]
  show (if c.errors.length > 0 then _ else _) = (if c.errors.length > 0 then _ else _)
  split
  · rfl
  · unfold buildSchema
    cases hs : c.sdl with
    | none =>
      have : (c.setDoc D).sdl = none := hs
      rw [this]
    | some s =>
      have : (c.setDoc D).sdl = some s := hs
      rw [this]
      show (validateSchema fuel ord.run (Ctx.setDoc D { c with schema := buildSchemaOf ord.build c.schema s, sdl := some s }) (buildSchemaOf ord.build c.schema s)).bind _ =
        (validateSchema fuel ord.run { c with schema := buildSchemaOf ord.build c.schema s, sdl := some s } (buildSchemaOf ord.build c.schema s)).bind _
      rw [validateSchema_setDoc]
      cases validateSchema fuel ord.run { c with schema := buildSchemaOf ord.build c.schema s, sdl := some s } (buildSchemaOf ord.build c.schema s) <;> rfl

section
variable (pf : Bytes → Option Nat)

/-- **C82, layout**: of an accepted or a rejected document, white space, commas, comments and the like between the tokens change nothing: if the one text is
syntactically right, so is the other, and `ParseSDLDoc` gives the same schema, the same errors in the same order, and leaves the same in the schema passed in. -/
theorem C82_layout (cs cs' : List Char) (h0 : '\x00' ∉ cs) (hi : Spec.Inserted cs cs') :
    ((∃ d, parse pf (Spec.utf8 cs) = .ok d) ↔ ∃ d', parse pf (Spec.utf8 cs') = .ok d') ∧
    ((∃ d, parse pf (Spec.utf8 cs) = .ok d) → ∀ fuel ord schema, parseSDLDoc pf fuel ord (Spec.utf8 cs') schema = parseSDLDoc pf fuel ord (Spec.utf8 cs) schema) := by
  refine ⟨⟨fun ⟨d, h⟩ => ?_, fun ⟨d', h'⟩ => ?_⟩, fun ⟨d, h⟩ fuel ord schema => ?_⟩
  · obtain ⟨d', h', -⟩ := C11_document pf cs cs' h0 hi d h
    exact ⟨d', h'⟩
  · obtain ⟨d, h, -⟩ := C11_removal pf cs cs' h0 hi d' h'
    exact ⟨d, h⟩
  · obtain ⟨d', h', hn⟩ := C11_document pf cs cs' h0 hi d h
    refine parseSDLDoc_bodies h h' ?_ fuel ord schema
    have := congrArg (fun x => x.defs.map (·.body)) hn
    simp only [Spec.noLoc, List.map_map] at this
    exact this

end

/-! ### The order of the definitions -/

/-- The schema definition and the extensions. -/
def Spec.Ordered : Body → Bool
  | .schema _ | .schemaExt _ | .typeExt _ => true
  | _ => false

/-- The same definitions; the schema definition and the extensions in the same order, the others in any order. -/
structure Spec.Rearranged (d e : Document) : Prop where
  same : SameDefinitions d e
  order : (d.defs.map (·.body)).filter Ordered = (e.defs.map (·.body)).filter Ordered

theorem Spec.Rearranged.symm {d e : Document} (h : Rearranged d e) : Rearranged e d := ⟨h.same.symm, h.order.symm⟩

theorem ordered_filterMap {α : Type} (f : Body → Option α) (hf : ∀ b, Spec.Ordered b = false → f b = none) (l : List Definition) :
    (l.filterMap fun x => f x.body) = ((l.map (·.body)).filter Spec.Ordered).filterMap f := by
  induction l with
  | nil => rfl
  | cons x l ih =>
    cases hx : Spec.Ordered x.body with
    | true => simp only [List.filterMap_cons, List.map_cons, List.filter_cons, hx, if_true, ih]
    | false => simp only [List.filterMap_cons, List.map_cons, List.filter_cons, hx, Bool.false_eq_true, if_false, ih, hf _ hx]

theorem rearranged_ordered {α : Type} {d e : Document} (h : Spec.Rearranged d e) (f : Body → Option α) (hf : ∀ b, Spec.Ordered b = false → f b = none) :
    (d.defs.filterMap fun x => f x.body) = e.defs.filterMap fun x => f x.body := by
  rw [ordered_filterMap f hf, ordered_filterMap f hf, h.order]

theorem find_perm {α : Type} (name : α → Bytes) {l l' : List α} (h : l.Perm l') (n : Bytes) :
    (l.map name).Nodup → l.find? (fun x => name x == n) = l'.find? (fun x => name x == n) := by
  induction h with
  | nil => intro _; rfl
  | cons x _ ih =>
    intro hn
    simp only [List.map_cons, List.nodup_cons] at hn
    simp only [List.find?_cons, ih hn.2]
  | swap x y l =>
    intro hn
    simp only [List.map_cons, List.nodup_cons, List.mem_cons, not_or] at hn
    simp only [List.find?_cons]
    cases hx : name x == n <;> cases hy : name y == n <;> try rfl
    rw [beq_iff_eq] at hx hy
    exact absurd (hy.trans hx.symm) hn.1.1
  | trans h1 _ ih1 ih2 =>
    intro hn
    exact (ih1 hn).trans (ih2 ((h1.map name).nodup_iff.1 hn))

/-- Nothing is defined twice, or defined although the schema has it. -/
def Spec.DefinedOnce (schema : Option Schema) (d : Document) : Prop := uniquenessErrors schema d = []

section
variable {d e : Document} {schema : Option Schema} (h : Spec.Rearranged d e)
include h

theorem rearranged_types : (Spec.typeDefs d.defs).Perm (Spec.typeDefs e.defs) := same_bodies h.same fun b => match b with | .type t => some t | _ => none
theorem rearranged_directives : (Spec.directiveDefs d.defs).Perm (Spec.directiveDefs e.defs) := same_bodies h.same fun b => match b with | .directive t => some t | _ => none
theorem rearranged_schemas : Spec.schemaDefs d.defs = Spec.schemaDefs e.defs :=
  rearranged_ordered h (fun b => match b with | .schema t => some t | _ => none) (fun b hb => by cases b <;> first | rfl | cases hb)
theorem rearranged_schemaExts : Spec.schemaExts d.defs = Spec.schemaExts e.defs :=
  rearranged_ordered h (fun b => match b with | .schemaExt t => some t | _ => none) (fun b hb => by cases b <;> first | rfl | cases hb)
theorem rearranged_typeExts : Spec.typeExts d.defs = Spec.typeExts e.defs :=
  rearranged_ordered h (fun b => match b with | .typeExt t => some t | _ => none) (fun b hb => by cases b <;> first | rfl | cases hb)
theorem rearranged_blocks : Spec.rootBlocks d.defs = Spec.rootBlocks e.defs :=
  rearranged_ordered h (fun b => match b with | .schema s => some (false, s.ops.map (·.op)) | .schemaExt s => some (true, s.ops.map (·.op)) | _ => none)
    (fun b hb => by cases b <;> first | rfl | cases hb)

theorem repeated_perm {l l' : List Bytes} (h : l.Perm l') : (Spec.repeated l).Perm (Spec.repeated l') := by
  rw [List.perm_iff_count]
  intro n
  rw [repeated_count, repeated_count, h.count_eq]

theorem uniqueness_rearranged : (Spec.uniquenessErrors schema d).Perm (Spec.uniquenessErrors schema e) := by
  unfold Spec.uniquenessErrors Spec.definitionErrors
  have t := (rearranged_types h).map (·.name)
  have ds := (rearranged_directives h).map (·.name)
  refine ((((t.filter _).map _).append ((repeated_perm h (t.filter _)).map _)).append (((ds.filter _).map _).append ((repeated_perm h (ds.filter _)).map _))).append ?_
  rw [rearranged_schemas h]

end

theorem definedOnce_nodup {schema : Option Schema} {d : Document} (hu : Spec.DefinedOnce schema d) :
    ((Spec.typeDefs d.defs).map (·.name)).Nodup ∧ ((Spec.directiveDefs d.defs).map (·.name)).Nodup := by
  have key : ∀ {β : Type} (m : GMap β) (names : List Bytes) (e1 e2 : Bytes → GErr), Spec.definitionErrors m names e1 e2 = [] → names.Nodup := by
    intro β m names e1 e2 h
    unfold Spec.definitionErrors at h
    simp only [List.append_eq_nil_iff, List.map_eq_nil_iff, repeated_nil, List.filter_eq_nil_iff, decide_eq_true_eq] at h
    have h2 := h.2
    rw [List.filter_eq_self.2 (fun a ha => by simpa using h.1 a ha)] at h2
    exact h2
  unfold Spec.DefinedOnce Spec.uniquenessErrors at hu
  simp only [List.append_eq_nil_iff] at hu
  exact ⟨key _ _ _ _ hu.1.1, key _ _ _ _ hu.1.2⟩

section
variable {d e : Document} {schema : Option Schema} (h : Spec.Rearranged d e) (hu : Spec.DefinedOnce schema d)
include h hu

theorem rearranged_directiveDef (n : Bytes) : Spec.directiveDef schema (Spec.directiveDefs d.defs) n = Spec.directiveDef schema (Spec.directiveDefs e.defs) n := by
  unfold Spec.directiveDef
  rw [find_perm (·.name) (rearranged_directives h) n (definedOnce_nodup hu).2]

theorem rearranged_extendedType (n : Bytes) : Spec.extendedType schema (Spec.typeDefs d.defs) n = Spec.extendedType schema (Spec.typeDefs e.defs) n := by
  unfold Spec.extendedType
  rw [find_perm (·.name) (rearranged_types h) n (definedOnce_nodup hu).1]

theorem sdlErrors_rearranged : (Spec.sdlErrors schema d).Perm (Spec.sdlErrors schema e) := by
  have hk : Spec.KnownType schema (Spec.typeDefs d.defs) = Spec.KnownType schema (Spec.typeDefs e.defs) := by
    funext n
    unfold Spec.KnownType
    simp only [(rearranged_types h).mem_iff]
  have hd : (Spec.directives d).Perm (Spec.directives e) := same_nodes h.same ⟨fun _ _ => rfl, fun _ _ => rfl, fun _ _ => rfl⟩ (fun _ => rfl) (fun _ => rfl)
  have hD : Spec.directiveDef schema (Spec.directiveDefs d.defs) = Spec.directiveDef schema (Spec.directiveDefs e.defs) :=
    funext (rearranged_directiveDef h hu)
  unfold Spec.sdlErrors
  refine List.Perm.append ?_ (List.Perm.append ?_ (List.Perm.append ?_ (List.Perm.append ?_ (List.Perm.append ?_ (List.Perm.append ?_ (List.Perm.append ?_
    (List.Perm.append ?_ (List.Perm.append ?_ (List.Perm.append ?_ ?_)))))))))
  · rw [rearranged_blocks h]
  · exact List.Perm.flatMap_right _ (same_nodes h.same ⟨fun _ _ => rfl, fun _ _ => rfl, fun _ _ => rfl⟩ (fun _ => rfl) (fun _ => rfl))
  · exact List.Perm.flatMap_right _ (same_nodes h.same ⟨fun _ _ => rfl, fun _ _ => rfl, fun _ _ => rfl⟩ (fun _ => rfl) (fun _ => rfl))
  · exact List.Perm.flatMap_right _ (same_nodes h.same ⟨fun _ _ => rfl, fun _ _ => rfl, fun _ _ => rfl⟩ (fun _ => rfl) (fun _ => rfl))
  · rw [hD]; exact List.Perm.flatMap_right _ hd
  · unfold Spec.directiveErrors; rw [hD]; exact List.Perm.flatMap_right _ hd
  · unfold Spec.unknownTypeErrors
    rw [hk]
    exact ((same_nodes h.same ⟨fun _ _ => rfl, fun _ _ => rfl, fun _ _ => rfl⟩ (fun _ => rfl) (fun _ => rfl)).filter _).map _
  · exact ((same_nodes h.same ⟨fun _ _ => rfl, fun _ _ => rfl, fun _ _ => rfl⟩ (fun _ => rfl) (fun _ => rfl)).filter _).map _
  · unfold Spec.extensionErrors
    rw [rearranged_typeExts h, funext (rearranged_extendedType h hu)]
  · unfold Spec.missingArgumentErrors; rw [hD]; exact List.Perm.flatMap_right _ hd
  · exact uniqueness_rearranged h

theorem built_rearranged {b : Schema} (hb : Spec.Built schema d.defs b) : Spec.Built schema e.defs b := by
  have ht : ∀ n, (Spec.typeDefs d.defs).find? (fun t => t.name == n) = (Spec.typeDefs e.defs).find? (fun t => t.name == n) :=
    fun n => find_perm (·.name) (rearranged_types h) n (definedOnce_nodup hu).1
  have hd : ∀ n, (Spec.directiveDefs d.defs).find? (fun t => t.name == n) = (Spec.directiveDefs e.defs).find? (fun t => t.name == n) :=
    fun n => find_perm (·.name) (rearranged_directives h) n (definedOnce_nodup hu).2
  have hs : Spec.schemaDefinition schema d.defs = Spec.schemaDefinition schema e.defs := by
    unfold Spec.schemaDefinition
    rw [rearranged_schemas h, rearranged_schemaExts h]
  have hx : ∀ n, Spec.extensionsOf d.defs n = Spec.extensionsOf e.defs n := fun n => by
    unfold Spec.extensionsOf; rw [rearranged_typeExts h]
  refine ⟨hb.typesOnce, hb.directivesOnce, fun n => ?_, fun n => ?_, hs ▸ hb.definition, hs ▸ hb.query, hs ▸ hb.mutation, hs ▸ hb.subscription⟩
  · rw [hb.types, ht, hx]
  · rw [hb.directives, hd]

end

section
variable {pf : Bytes → Option Nat} {a a' : Bytes} {d e : Document} {schema : Option Schema} {ord ord' : Orders} {r r' : SDLResult}

theorem sdlErrors_unique (he : Spec.sdlErrors schema d = []) : Spec.DefinedOnce schema d := by
  unfold Spec.sdlErrors at he
  simp only [List.append_eq_nil_iff] at he
  exact he.2.2.2.2.2.2.2.2.2.2

/-- **C82, order**: the definitions, other than the schema definition and the extensions, may stand anywhere.  For two texts that differ in this way (and in
layout), `ParseSDLDoc` returns for both or for neither; if nothing is defined twice, the results are the same up to the order of errors and of map entries. -/
theorem C82_order (ha : parse pf a = .ok d) (ha' : parse pf a' = .ok e) (h : Spec.Rearranged d e) (hu : Spec.DefinedOnce schema d) :
    ((∃ r, SDLDocReturns pf ord a schema r) ↔ ∃ r, SDLDocReturns pf ord' a' schema r) ∧
    (SDLDocReturns pf ord a schema r → SDLDocReturns pf ord' a' schema r' → Spec.SameResult r r') := by
  have hp := sdlErrors_rearranged h hu
  by_cases he : Spec.sdlErrors schema d = []
  · have he' : Spec.sdlErrors schema e = [] := by rw [he] at hp; exact hp.symm.eq_nil
    obtain ⟨b, hB, hW, hr, -, hall⟩ := sdlDoc_cases (ord := ord) ha he
    obtain ⟨b', hB', hW', hr', -, hall'⟩ := sdlDoc_cases (ord := ord') ha' he'
    have hS := (built_rearranged h hu hB).same hB'
    refine ⟨?_, fun h h' => ?_⟩
    · rw [hr, hr']
      exact ⟨fun h => ⟨complete_imp hS h.1, settled_imp hS hW h.2⟩, fun h => ⟨complete_imp hS.symm h.1, settled_imp hS.symm hW' h.2⟩⟩
    · obtain ⟨a1, a2, a3⟩ := hall r h
      obtain ⟨b1, b2, b3⟩ := hall' r' h'
      have hE := schemaErrors_same hS hW
      have haft : r.after = r'.after ∨ ∃ s s', r.after = some s ∧ r'.after = some s' ∧ Spec.Same s s' := by
        rw [a2, b2]
        cases schema with
        | none => exact .inl rfl
        | some x => exact .inr ⟨b, b', rfl, rfl, hS⟩
      rcases a3 with ⟨x1, x2, x3⟩ | ⟨x1, x2, es, x3, x4⟩ <;> rcases b3 with ⟨y1, y2, y3⟩ | ⟨y1, y2, es', y3, y4⟩
      · exact ⟨a1.trans b1.symm, .inl ⟨x3, y3⟩, .inr ⟨b, b', x2, y2, hS⟩, haft⟩
      · rw [x1] at hE; exact absurd hE.symm.eq_nil y1
      · rw [y1] at hE; exact absurd hE.eq_nil x1
      · exact ⟨a1.trans b1.symm, .inr ⟨es, es', x3, y3, x4.trans (hE.trans y4.symm)⟩, .inl ⟨x2, y2⟩, haft⟩
  · have he' : Spec.sdlErrors schema e ≠ [] := fun h0 => he (by rw [h0] at hp; exact hp.eq_nil)
    refine ⟨⟨fun _ => ?_, fun _ => ?_⟩, ?_⟩
    · obtain ⟨es, h1, -⟩ := sdlDoc_rejected (ord := ord') ha' he' 0; exact ⟨_, 0, h1⟩
    · obtain ⟨es, h1, -⟩ := sdlDoc_rejected (ord := ord) ha he 0; exact ⟨_, 0, h1⟩
    · rintro ⟨k, h⟩ ⟨k', h'⟩
      obtain ⟨es, h1, h2⟩ := sdlDoc_rejected (ord := ord) ha he k
      obtain ⟨es', h1', h2'⟩ := sdlDoc_rejected (ord := ord') ha' he' k'
      rw [h1] at h
      rw [h1'] at h'
      cases h; cases h'
      exact ⟨rfl, .inr ⟨_, _, rfl, rfl, h2.trans (hp.trans h2'.symm)⟩, .inl ⟨rfl, rfl⟩, .inl rfl⟩

/-- **C82, order, the verdict**: also if something is defined twice, the texts are both accepted, with the same schema, or neither is. -/
theorem C82_verdict_partial (ha : parse pf a = .ok d) (ha' : parse pf a' = .ok e) (h : Spec.Rearranged d e) {b : Schema}
    (hr : SDLDocReturns pf ord a schema r) (hb : r.schema = some b) :
    ∃ r' b', SDLDocReturns pf ord' a' schema r' ∧ r'.schema = some b' ∧ r'.errors = none ∧ Spec.Same b b' := by
  obtain ⟨d', hd', he, -⟩ := accepted hr hb
  have : d' = d := ParseOut.ok.inj (hd'.symm.trans ha)
  subst this
  obtain ⟨h1, -⟩ := C82_order (ord := ord) (ord' := ord') (r := r) (r' := r) ha ha' h (sdlErrors_unique he)
  obtain ⟨r', hr'⟩ := h1.1 ⟨r, hr⟩
  obtain ⟨-, h2⟩ := C82_order (ord := ord) (ord' := ord') (r := r) (r' := r') ha ha' h (sdlErrors_unique he)
  have hs := h2 hr hr'
  rcases hs.schema with ⟨h3, -⟩ | ⟨s, s', h3, h4, h5⟩
  · rw [h3] at hb; cases hb
  · have : s = b := Option.some.inj (h3.symm.trans hb)
    subst this
    obtain ⟨-, -, -, -, -, -, -, -, h6, -⟩ := accepted hr' h4
    exact ⟨r', s', hr', h4, h6, h5⟩

end

section
variable (pf : Bytes → Option Nat)

/-- A document in two orders and layouts to which the theorem applies; it is accepted. -/
example : ∃ d e r, parse pf b!"type Query{a:T}scalar T extend type Query{b:ID}" = .ok d ∧ parse pf b!"extend type Query { b: ID } scalar T\ntype Query { a: T }" = .ok e ∧
    Spec.Rearranged d e ∧ d.defs.length = 3 ∧ SDLDocReturns pf plainOrders b!"type Query{a:T}scalar T extend type Query{b:ID}" none r ∧ r.schema.isSome = true := by
  refine ⟨_, _, _, (parse_eq (ts := [⟨.name, b!"type", 1, 1⟩, ⟨.name, b!"Query", 1, 6⟩, ⟨.punctuator, b!"{", 1, 11⟩, ⟨.name, b!"a", 1, 12⟩, ⟨.punctuator, b!":", 1, 13⟩, ⟨.name, b!"T", 1, 14⟩, ⟨.punctuator, b!"}", 1, 15⟩, ⟨.name, b!"scalar", 1, 16⟩, ⟨.name, b!"T", 1, 23⟩, ⟨.name, b!"extend", 1, 25⟩, ⟨.name, b!"type", 1, 32⟩, ⟨.name, b!"Query", 1, 37⟩, ⟨.punctuator, b!"{", 1, 42⟩, ⟨.name, b!"b", 1, 43⟩, ⟨.punctuator, b!":", 1, 44⟩, ⟨.name, b!"ID", 1, 45⟩, ⟨.punctuator, b!"}", 1, 47⟩, ⟨.eof, [], 1, 48⟩]) (by decide) rfl), (parse_eq (ts := [⟨.name, b!"extend", 1, 1⟩, ⟨.name, b!"type", 1, 8⟩, ⟨.name, b!"Query", 1, 13⟩, ⟨.punctuator, b!"{", 1, 19⟩, ⟨.name, b!"b", 1, 21⟩, ⟨.punctuator, b!":", 1, 22⟩, ⟨.name, b!"ID", 1, 24⟩, ⟨.punctuator, b!"}", 1, 27⟩, ⟨.name, b!"scalar", 1, 29⟩, ⟨.name, b!"T", 1, 36⟩, ⟨.name, b!"type", 2, 1⟩, ⟨.name, b!"Query", 2, 6⟩, ⟨.punctuator, b!"{", 2, 12⟩, ⟨.name, b!"a", 2, 14⟩, ⟨.punctuator, b!":", 2, 15⟩, ⟨.name, b!"T", 2, 17⟩, ⟨.punctuator, b!"}", 2, 19⟩, ⟨.eof, [], 2, 20⟩]) (by decide) rfl), ?_, rfl,
    ⟨9, by unfold parseSDLDoc; rw [(parse_eq (ts := [⟨.name, b!"type", 1, 1⟩, ⟨.name, b!"Query", 1, 6⟩, ⟨.punctuator, b!"{", 1, 11⟩, ⟨.name, b!"a", 1, 12⟩, ⟨.punctuator, b!":", 1, 13⟩, ⟨.name, b!"T", 1, 14⟩, ⟨.punctuator, b!"}", 1, 15⟩, ⟨.name, b!"scalar", 1, 16⟩, ⟨.name, b!"T", 1, 23⟩, ⟨.name, b!"extend", 1, 25⟩, ⟨.name, b!"type", 1, 32⟩, ⟨.name, b!"Query", 1, 37⟩, ⟨.punctuator, b!"{", 1, 42⟩, ⟨.name, b!"b", 1, 43⟩, ⟨.punctuator, b!":", 1, 44⟩, ⟨.name, b!"ID", 1, 45⟩, ⟨.punctuator, b!"}", 1, 47⟩, ⟨.eof, [], 1, 48⟩]) (by decide) rfl)]; rfl⟩, rfl⟩
  refine ⟨?_, rfl⟩
  refine List.Perm.trans (List.Perm.cons _ (List.Perm.swap _ _ _)) ?_
  refine List.Perm.trans (List.Perm.swap _ _ _) ?_
  exact List.Perm.cons _ (List.Perm.swap _ _ _)

/-- **C82 fails for schema extensions**: an extension that gives a second type for queries is an error after the schema definition, not before it. -/
theorem C82_refuted_schema : ∃ d e r r', parse pf b!"extend schema{query:A}schema{query:B}type A{a:ID}type B{a:ID}" = .ok d ∧
    parse pf b!"schema{query:B}extend schema{query:A}type A{a:ID}type B{a:ID}" = .ok e ∧ Spec.SameDefinitions d e ∧
    SDLDocReturns pf plainOrders b!"extend schema{query:A}schema{query:B}type A{a:ID}type B{a:ID}" none r ∧ r.schema.isSome = true ∧
    SDLDocReturns pf plainOrders b!"schema{query:B}extend schema{query:A}type A{a:ID}type B{a:ID}" none r' ∧ r'.schema = none ∧ r'.errors.isSome = true :=
  ⟨_, _, _, _, (parse_eq (ts := [⟨.name, b!"extend", 1, 1⟩, ⟨.name, b!"schema", 1, 8⟩, ⟨.punctuator, b!"{", 1, 14⟩, ⟨.name, b!"query", 1, 15⟩, ⟨.punctuator, b!":", 1, 20⟩, ⟨.name, b!"A", 1, 21⟩, ⟨.punctuator, b!"}", 1, 22⟩, ⟨.name, b!"schema", 1, 23⟩, ⟨.punctuator, b!"{", 1, 29⟩, ⟨.name, b!"query", 1, 30⟩, ⟨.punctuator, b!":", 1, 35⟩, ⟨.name, b!"B", 1, 36⟩, ⟨.punctuator, b!"}", 1, 37⟩, ⟨.name, b!"type", 1, 38⟩, ⟨.name, b!"A", 1, 43⟩, ⟨.punctuator, b!"{", 1, 44⟩, ⟨.name, b!"a", 1, 45⟩, ⟨.punctuator, b!":", 1, 46⟩, ⟨.name, b!"ID", 1, 47⟩, ⟨.punctuator, b!"}", 1, 49⟩, ⟨.name, b!"type", 1, 50⟩, ⟨.name, b!"B", 1, 55⟩, ⟨.punctuator, b!"{", 1, 56⟩, ⟨.name, b!"a", 1, 57⟩, ⟨.punctuator, b!":", 1, 58⟩, ⟨.name, b!"ID", 1, 59⟩, ⟨.punctuator, b!"}", 1, 61⟩, ⟨.eof, [], 1, 62⟩]) (by decide) rfl), (parse_eq (ts := [⟨.name, b!"schema", 1, 1⟩, ⟨.punctuator, b!"{", 1, 7⟩, ⟨.name, b!"query", 1, 8⟩, ⟨.punctuator, b!":", 1, 13⟩, ⟨.name, b!"B", 1, 14⟩, ⟨.punctuator, b!"}", 1, 15⟩, ⟨.name, b!"extend", 1, 16⟩, ⟨.name, b!"schema", 1, 23⟩, ⟨.punctuator, b!"{", 1, 29⟩, ⟨.name, b!"query", 1, 30⟩, ⟨.punctuator, b!":", 1, 35⟩, ⟨.name, b!"A", 1, 36⟩, ⟨.punctuator, b!"}", 1, 37⟩, ⟨.name, b!"type", 1, 38⟩, ⟨.name, b!"A", 1, 43⟩, ⟨.punctuator, b!"{", 1, 44⟩, ⟨.name, b!"a", 1, 45⟩, ⟨.punctuator, b!":", 1, 46⟩, ⟨.name, b!"ID", 1, 47⟩, ⟨.punctuator, b!"}", 1, 49⟩, ⟨.name, b!"type", 1, 50⟩, ⟨.name, b!"B", 1, 55⟩, ⟨.punctuator, b!"{", 1, 56⟩, ⟨.name, b!"a", 1, 57⟩, ⟨.punctuator, b!":", 1, 58⟩, ⟨.name, b!"ID", 1, 59⟩, ⟨.punctuator, b!"}", 1, 61⟩, ⟨.eof, [], 1, 62⟩]) (by decide) rfl),
    List.Perm.swap _ _ _, ⟨9, by unfold parseSDLDoc; rw [(parse_eq (ts := [⟨.name, b!"extend", 1, 1⟩, ⟨.name, b!"schema", 1, 8⟩, ⟨.punctuator, b!"{", 1, 14⟩, ⟨.name, b!"query", 1, 15⟩, ⟨.punctuator, b!":", 1, 20⟩, ⟨.name, b!"A", 1, 21⟩, ⟨.punctuator, b!"}", 1, 22⟩, ⟨.name, b!"schema", 1, 23⟩, ⟨.punctuator, b!"{", 1, 29⟩, ⟨.name, b!"query", 1, 30⟩, ⟨.punctuator, b!":", 1, 35⟩, ⟨.name, b!"B", 1, 36⟩, ⟨.punctuator, b!"}", 1, 37⟩, ⟨.name, b!"type", 1, 38⟩, ⟨.name, b!"A", 1, 43⟩, ⟨.punctuator, b!"{", 1, 44⟩, ⟨.name, b!"a", 1, 45⟩, ⟨.punctuator, b!":", 1, 46⟩, ⟨.name, b!"ID", 1, 47⟩, ⟨.punctuator, b!"}", 1, 49⟩, ⟨.name, b!"type", 1, 50⟩, ⟨.name, b!"B", 1, 55⟩, ⟨.punctuator, b!"{", 1, 56⟩, ⟨.name, b!"a", 1, 57⟩, ⟨.punctuator, b!":", 1, 58⟩, ⟨.name, b!"ID", 1, 59⟩, ⟨.punctuator, b!"}", 1, 61⟩, ⟨.eof, [], 1, 62⟩]) (by decide) rfl)]; rfl⟩, rfl,
    ⟨9, by unfold parseSDLDoc; rw [(parse_eq (ts := [⟨.name, b!"schema", 1, 1⟩, ⟨.punctuator, b!"{", 1, 7⟩, ⟨.name, b!"query", 1, 8⟩, ⟨.punctuator, b!":", 1, 13⟩, ⟨.name, b!"B", 1, 14⟩, ⟨.punctuator, b!"}", 1, 15⟩, ⟨.name, b!"extend", 1, 16⟩, ⟨.name, b!"schema", 1, 23⟩, ⟨.punctuator, b!"{", 1, 29⟩, ⟨.name, b!"query", 1, 30⟩, ⟨.punctuator, b!":", 1, 35⟩, ⟨.name, b!"A", 1, 36⟩, ⟨.punctuator, b!"}", 1, 37⟩, ⟨.name, b!"type", 1, 38⟩, ⟨.name, b!"A", 1, 43⟩, ⟨.punctuator, b!"{", 1, 44⟩, ⟨.name, b!"a", 1, 45⟩, ⟨.punctuator, b!":", 1, 46⟩, ⟨.name, b!"ID", 1, 47⟩, ⟨.punctuator, b!"}", 1, 49⟩, ⟨.name, b!"type", 1, 50⟩, ⟨.name, b!"B", 1, 55⟩, ⟨.punctuator, b!"{", 1, 56⟩, ⟨.name, b!"a", 1, 57⟩, ⟨.punctuator, b!":", 1, 58⟩, ⟨.name, b!"ID", 1, 59⟩, ⟨.punctuator, b!"}", 1, 61⟩, ⟨.eof, [], 1, 62⟩]) (by decide) rfl)]; rfl⟩, rfl, rfl⟩

/-- **C82 fails for type extensions**: a field may be added twice, and only the first one counts when it is compared with the interface. -/
theorem C82_refuted_type : ∃ d e r r', parse pf b!"interface I{a:ID}type Query implements I{b:ID}extend type Query{a:ID}extend type Query{a:String}" = .ok d ∧
    parse pf b!"interface I{a:ID}type Query implements I{b:ID}extend type Query{a:String}extend type Query{a:ID}" = .ok e ∧ Spec.SameDefinitions d e ∧
    SDLDocReturns pf plainOrders b!"interface I{a:ID}type Query implements I{b:ID}extend type Query{a:ID}extend type Query{a:String}" none r ∧ r.schema.isSome = true ∧
    SDLDocReturns pf plainOrders b!"interface I{a:ID}type Query implements I{b:ID}extend type Query{a:String}extend type Query{a:ID}" none r' ∧ r'.schema = none ∧
    r'.errors.isSome = true := by
  refine ⟨_, _, _, _, (parse_eq (ts := [⟨.name, b!"interface", 1, 1⟩, ⟨.name, b!"I", 1, 11⟩, ⟨.punctuator, b!"{", 1, 12⟩, ⟨.name, b!"a", 1, 13⟩, ⟨.punctuator, b!":", 1, 14⟩, ⟨.name, b!"ID", 1, 15⟩, ⟨.punctuator, b!"}", 1, 17⟩, ⟨.name, b!"type", 1, 18⟩, ⟨.name, b!"Query", 1, 23⟩, ⟨.name, b!"implements", 1, 29⟩, ⟨.name, b!"I", 1, 40⟩, ⟨.punctuator, b!"{", 1, 41⟩, ⟨.name, b!"b", 1, 42⟩, ⟨.punctuator, b!":", 1, 43⟩, ⟨.name, b!"ID", 1, 44⟩, ⟨.punctuator, b!"}", 1, 46⟩, ⟨.name, b!"extend", 1, 47⟩, ⟨.name, b!"type", 1, 54⟩, ⟨.name, b!"Query", 1, 59⟩, ⟨.punctuator, b!"{", 1, 64⟩, ⟨.name, b!"a", 1, 65⟩, ⟨.punctuator, b!":", 1, 66⟩, ⟨.name, b!"ID", 1, 67⟩, ⟨.punctuator, b!"}", 1, 69⟩, ⟨.name, b!"extend", 1, 70⟩, ⟨.name, b!"type", 1, 77⟩, ⟨.name, b!"Query", 1, 82⟩, ⟨.punctuator, b!"{", 1, 87⟩, ⟨.name, b!"a", 1, 88⟩, ⟨.punctuator, b!":", 1, 89⟩, ⟨.name, b!"String", 1, 90⟩, ⟨.punctuator, b!"}", 1, 96⟩, ⟨.eof, [], 1, 97⟩]) (by decide) rfl),
    (parse_eq (ts := [⟨.name, b!"interface", 1, 1⟩, ⟨.name, b!"I", 1, 11⟩, ⟨.punctuator, b!"{", 1, 12⟩, ⟨.name, b!"a", 1, 13⟩, ⟨.punctuator, b!":", 1, 14⟩, ⟨.name, b!"ID", 1, 15⟩, ⟨.punctuator, b!"}", 1, 17⟩, ⟨.name, b!"type", 1, 18⟩, ⟨.name, b!"Query", 1, 23⟩, ⟨.name, b!"implements", 1, 29⟩, ⟨.name, b!"I", 1, 40⟩, ⟨.punctuator, b!"{", 1, 41⟩, ⟨.name, b!"b", 1, 42⟩, ⟨.punctuator, b!":", 1, 43⟩, ⟨.name, b!"ID", 1, 44⟩, ⟨.punctuator, b!"}", 1, 46⟩, ⟨.name, b!"extend", 1, 47⟩, ⟨.name, b!"type", 1, 54⟩, ⟨.name, b!"Query", 1, 59⟩, ⟨.punctuator, b!"{", 1, 64⟩, ⟨.name, b!"a", 1, 65⟩, ⟨.punctuator, b!":", 1, 66⟩, ⟨.name, b!"String", 1, 67⟩, ⟨.punctuator, b!"}", 1, 73⟩, ⟨.name, b!"extend", 1, 74⟩, ⟨.name, b!"type", 1, 81⟩, ⟨.name, b!"Query", 1, 86⟩, ⟨.punctuator, b!"{", 1, 91⟩, ⟨.name, b!"a", 1, 92⟩, ⟨.punctuator, b!":", 1, 93⟩, ⟨.name, b!"ID", 1, 94⟩, ⟨.punctuator, b!"}", 1, 96⟩, ⟨.eof, [], 1, 97⟩]) (by decide) rfl),
    ?_,
    ⟨9, by unfold parseSDLDoc; rw [(parse_eq (ts := [⟨.name, b!"interface", 1, 1⟩, ⟨.name, b!"I", 1, 11⟩, ⟨.punctuator, b!"{", 1, 12⟩, ⟨.name, b!"a", 1, 13⟩, ⟨.punctuator, b!":", 1, 14⟩, ⟨.name, b!"ID", 1, 15⟩, ⟨.punctuator, b!"}", 1, 17⟩, ⟨.name, b!"type", 1, 18⟩, ⟨.name, b!"Query", 1, 23⟩, ⟨.name, b!"implements", 1, 29⟩, ⟨.name, b!"I", 1, 40⟩, ⟨.punctuator, b!"{", 1, 41⟩, ⟨.name, b!"b", 1, 42⟩, ⟨.punctuator, b!":", 1, 43⟩, ⟨.name, b!"ID", 1, 44⟩, ⟨.punctuator, b!"}", 1, 46⟩, ⟨.name, b!"extend", 1, 47⟩, ⟨.name, b!"type", 1, 54⟩, ⟨.name, b!"Query", 1, 59⟩, ⟨.punctuator, b!"{", 1, 64⟩, ⟨.name, b!"a", 1, 65⟩, ⟨.punctuator, b!":", 1, 66⟩, ⟨.name, b!"ID", 1, 67⟩, ⟨.punctuator, b!"}", 1, 69⟩, ⟨.name, b!"extend", 1, 70⟩, ⟨.name, b!"type", 1, 77⟩, ⟨.name, b!"Query", 1, 82⟩, ⟨.punctuator, b!"{", 1, 87⟩, ⟨.name, b!"a", 1, 88⟩, ⟨.punctuator, b!":", 1, 89⟩, ⟨.name, b!"String", 1, 90⟩, ⟨.punctuator, b!"}", 1, 96⟩, ⟨.eof, [], 1, 97⟩]) (by decide) rfl)]; rfl⟩, rfl,
    ⟨9, by unfold parseSDLDoc; rw [(parse_eq (ts := [⟨.name, b!"interface", 1, 1⟩, ⟨.name, b!"I", 1, 11⟩, ⟨.punctuator, b!"{", 1, 12⟩, ⟨.name, b!"a", 1, 13⟩, ⟨.punctuator, b!":", 1, 14⟩, ⟨.name, b!"ID", 1, 15⟩, ⟨.punctuator, b!"}", 1, 17⟩, ⟨.name, b!"type", 1, 18⟩, ⟨.name, b!"Query", 1, 23⟩, ⟨.name, b!"implements", 1, 29⟩, ⟨.name, b!"I", 1, 40⟩, ⟨.punctuator, b!"{", 1, 41⟩, ⟨.name, b!"b", 1, 42⟩, ⟨.punctuator, b!":", 1, 43⟩, ⟨.name, b!"ID", 1, 44⟩, ⟨.punctuator, b!"}", 1, 46⟩, ⟨.name, b!"extend", 1, 47⟩, ⟨.name, b!"type", 1, 54⟩, ⟨.name, b!"Query", 1, 59⟩, ⟨.punctuator, b!"{", 1, 64⟩, ⟨.name, b!"a", 1, 65⟩, ⟨.punctuator, b!":", 1, 66⟩, ⟨.name, b!"String", 1, 67⟩, ⟨.punctuator, b!"}", 1, 73⟩, ⟨.name, b!"extend", 1, 74⟩, ⟨.name, b!"type", 1, 81⟩, ⟨.name, b!"Query", 1, 86⟩, ⟨.punctuator, b!"{", 1, 91⟩, ⟨.name, b!"a", 1, 92⟩, ⟨.punctuator, b!":", 1, 93⟩, ⟨.name, b!"ID", 1, 94⟩, ⟨.punctuator, b!"}", 1, 96⟩, ⟨.eof, [], 1, 97⟩]) (by decide) rfl)]; rfl⟩, rfl, rfl⟩
  exact List.Perm.cons _ (List.Perm.cons _ (List.Perm.swap _ _ _))

/-- Two layouts of a document to which `C82_layout` applies. -/
example : ∃ d, parse pf (Spec.utf8 c!"type Query{a:ID}") = .ok d ∧ d.types = 1 ∧ '\x00' ∉ c!"type Query{a:ID}" := ⟨_, (parse_eq (ts := [⟨.name, b!"type", 1, 1⟩, ⟨.name, b!"Query", 1, 6⟩, ⟨.punctuator, b!"{", 1, 11⟩, ⟨.name, b!"a", 1, 12⟩, ⟨.punctuator, b!":", 1, 13⟩, ⟨.name, b!"ID", 1, 14⟩, ⟨.punctuator, b!"}", 1, 16⟩, ⟨.eof, [], 1, 17⟩]) (by decide) rfl), rfl, by decide⟩

end

end GQL
