/-
The schema that is built, and the validation of schemas: outlines only.
-/
import Verif.Proofs.Outline
import Verif.Proofs.SchemaSame

namespace GQL
open Spec Classical

/-! ### Definitions by kind -/

theorem filterMap_bare {α : Type} (f : Body → Option α) (g : α → α) (h : ∀ b, f (bareBody b) = (f b).map g) (ds : List Definition) :
    ((ds.map bareDefinition).filterMap fun d => f d.body) = (ds.filterMap fun d => f d.body).map g := by
  induction ds with
  | nil => rfl
  | cons d ds ih =>
    have : f (bareDefinition d).body = (f d.body).map g := h d.body
    rw [List.map_cons, List.filterMap_cons, List.filterMap_cons, this, ih]
    cases f d.body <;> rfl

theorem typeDefs_bare (ds : List Definition) : typeDefs (ds.map bareDefinition) = (typeDefs ds).map bareType :=
  filterMap_bare (fun b => match b with | .type t => some t | _ => none) bareType (fun b => by cases b <;> rfl) ds
theorem directiveDefs_bare (ds : List Definition) : directiveDefs (ds.map bareDefinition) = (directiveDefs ds).map bareDirective :=
  filterMap_bare (fun b => match b with | .directive t => some t | _ => none) bareDirective (fun b => by cases b <;> rfl) ds
theorem schemaDefs_bare (ds : List Definition) : schemaDefs (ds.map bareDefinition) = (schemaDefs ds).map bareSchemaDef :=
  filterMap_bare (fun b => match b with | .schema t => some t | _ => none) bareSchemaDef (fun b => by cases b <;> rfl) ds
theorem schemaExts_bare (ds : List Definition) : schemaExts (ds.map bareDefinition) = (schemaExts ds).map bareSchemaDef :=
  filterMap_bare (fun b => match b with | .schemaExt t => some t | _ => none) bareSchemaDef (fun b => by cases b <;> rfl) ds
theorem typeExts_bare (ds : List Definition) : typeExts (ds.map bareDefinition) = (typeExts ds).map bareType :=
  filterMap_bare (fun b => match b with | .typeExt t => some t | _ => none) bareType (fun b => by cases b <;> rfl) ds
theorem operations_bare (ds : List Definition) : Spec.operations (ds.map bareDefinition) = (Spec.operations ds).map bareOp :=
  filterMap_bare (fun b => match b with | .op t => some t | _ => none) bareOp (fun b => by cases b <;> rfl) ds

/-! ### The schema that is built -/

theorem after_map {α β : Type} (f : α → β) (l m : List α) : after (l.map f) (m.map f) = (after l m).map f := by
  cases l <;> simp [after]

theorem extendedOwn_bare (t : TypeDef) (es : List TypeDef) : extendedOwn (bareType t) (es.map bareType) = bareType (extendedOwn t es) := by
  have h1 : (es.map bareType).flatMap (·.dirs) = (es.flatMap (·.dirs)).map bareDir := by rw [List.flatMap_map, List.map_flatMap]; rfl
  have h2 : (es.map bareType).flatMap (·.fields) = (es.flatMap (·.fields)).map bareField := by rw [List.flatMap_map, List.map_flatMap]; rfl
  have h3 : (es.map bareType).flatMap (·.values) = (es.flatMap (·.values)).map bareEnum := by rw [List.flatMap_map, List.map_flatMap]; rfl
  have h4 : (es.map bareType).flatMap (·.inputs) = (es.flatMap (·.inputs)).map bareInput := by rw [List.flatMap_map, List.map_flatMap]; rfl
  have h5 : (es.map bareType).flatMap (·.ifaces) = es.flatMap (·.ifaces) := by rw [List.flatMap_map]; rfl
  have h6 : (es.map bareType).flatMap (·.members) = es.flatMap (·.members) := by rw [List.flatMap_map]; rfl
  unfold extendedOwn
  rw [h1, h2, h3, h4, h5, h6]
  simp only [bareType, after_map]

theorem extensionsOf_bare (ds : List Definition) (n : Bytes) : extensionsOf (ds.map bareDefinition) n = (extensionsOf ds n).map bareType := by
  unfold extensionsOf
  rw [typeExts_bare, List.filter_map]
  rfl

theorem find_bare {α : Type} (f : α → α) (name : α → Bytes) (h : ∀ x, name (f x) = name x) (l : List α) (n : Bytes) :
    (l.map f).find? (fun t => name t == n) = (l.find? fun t => name t == n).map f := by
  rw [List.find?_map]
  simp only [Function.comp_def, h]

theorem schemaDefinition_bare (schema : Option Schema) (ds : List Definition) :
    schemaDefinition (schema.map bareSchema) (ds.map bareDefinition) = bareSchemaDef (schemaDefinition schema ds) := by
  have h1 : ((schemaExts ds).map bareSchemaDef).flatMap (·.dirs) = ((schemaExts ds).flatMap (·.dirs)).map bareDir := by rw [List.flatMap_map, List.map_flatMap]; rfl
  have h2 : ((schemaExts ds).map bareSchemaDef).flatMap (·.ops) = (schemaExts ds).flatMap (·.ops) := by rw [List.flatMap_map]; rfl
  unfold schemaDefinition
  rw [schemaDefs_bare, schemaExts_bare, Option.isSome_map, h1, h2, List.head?_map]
  cases schema.isSome with
  | true => rfl
  | false =>
    cases (schemaDefs ds).head? with
    | none => rfl
    | some d => simp [bareSchemaDef, after_map]

theorem schemaTypes_bare (schema : Option Schema) (n : Bytes) : ((schemaTypes (schema.map bareSchema)).lookup n).isSome = ((schemaTypes schema).lookup n).isSome := by
  cases schema with
  | none => rfl
  | some s =>
    show ((bareMap bareType s.types).lookup n).isSome = _
    rw [bareMap_lookup, Option.isSome_map]
    rfl

theorem schemaDirectives_bare (schema : Option Schema) (n : Bytes) :
    ((schemaDirectives (schema.map bareSchema)).lookup n).isSome = ((schemaDirectives schema).lookup n).isSome := by
  cases schema with
  | none => rfl
  | some s =>
    show ((bareMap bareDirective s.directives).lookup n).isSome = _
    rw [bareMap_lookup, Option.isSome_map]
    rfl

/-- The outlines of the types of the schema that is built, from outlines. -/
def outTypes (schema : Option Schema) (ds : List Definition) (n : Bytes) : Option TypeDef :=
  if ((schemaTypes schema).lookup n).isSome then none else match (typeDefs ds).find? (fun t => t.name == n) with
    | some t => some (extendedOwn t (extensionsOf ds n))
    | none => if schema.isSome then none else (builtInTypes.lookup n).map bareType

def outDirectives (schema : Option Schema) (ds : List Definition) (n : Bytes) : Option DirDef :=
  if ((schemaDirectives schema).lookup n).isSome then none else match (directiveDefs ds).find? (fun t => t.name == n) with
    | some d => some d
    | none => if schema.isSome then none else (builtInDirectives.lookup n).map bareDirective

section
variable {schema : Option Schema} {ds : List Definition} {b : Schema} (h : Built schema ds b)
include h

theorem built_outTypes (n : Bytes) : (bareSchema b).types.lookup n = outTypes (schema.map bareSchema) (ds.map bareDefinition) n := by
  show (bareMap bareType b.types).lookup n = _
  rw [bareMap_lookup, h.types]
  unfold outTypes
  rw [schemaTypes_bare, typeDefs_bare, find_bare bareType (·.name) (fun _ => rfl), extensionsOf_bare, Option.isSome_map]
  cases ((schemaTypes schema).lookup n).isSome with
  | true => rfl
  | false =>
    cases (typeDefs ds).find? (fun t => t.name == n) with
    | some t => simp [extendedOwn_bare]
    | none => cases schema.isSome <;> rfl

theorem built_outDirectives (n : Bytes) : (bareSchema b).directives.lookup n = outDirectives (schema.map bareSchema) (ds.map bareDefinition) n := by
  show (bareMap bareDirective b.directives).lookup n = _
  rw [bareMap_lookup, h.directives]
  unfold outDirectives
  rw [schemaDirectives_bare, directiveDefs_bare, find_bare bareDirective (·.name) (fun _ => rfl), Option.isSome_map]
  cases ((schemaDirectives schema).lookup n).isSome with
  | true => rfl
  | false =>
    cases (directiveDefs ds).find? (fun t => t.name == n) with
    | some t => rfl
    | none => cases schema.isSome <;> rfl

end

theorem bareMap_keys {α : Type} (f : α → α) (m : GMap α) : (bareMap f m).map (·.1) = m.map (·.1) := by
  rw [bareMap, List.map_map]; rfl

theorem sameOutline_bare {d d' : Document} (h : SameOutline d d') : d.defs.map bareDefinition = d'.defs.map bareDefinition := by
  have key : ∀ ds : List Definition, ds.map bareDefinition = (ds.map fun x => bareBody x.body).map fun b => ⟨⟨0, 0⟩, b⟩ := by
    intro ds; rw [List.map_map]; rfl
  rw [key, key, h]

/-- What is built from the same outlines has the same outline. -/
theorem built_outline {schema schema' : Option Schema} {d d' : Document} {b b' : Schema} (hs : schema.map bareSchema = schema'.map bareSchema) (h : SameOutline d d')
    (hB : Built schema d.defs b) (hB' : Built schema' d'.defs b') : Same (bareSchema b) (bareSchema b') := by
  have hd := sameOutline_bare h
  have hdef : bareSchemaDef (schemaDefinition schema d.defs) = bareSchemaDef (schemaDefinition schema' d'.defs) := by
    rw [← schemaDefinition_bare, ← schemaDefinition_bare, hs, hd]
  have hops : (schemaDefinition schema d.defs).ops = (schemaDefinition schema' d'.defs).ops := by
    have := congrArg (fun x : SchemaDef => x.ops) hdef
    exact this
  have hroot : ∀ f : Schema → Option Ty, (∀ s, f (bareSchema s) = f s) → schema.bind f = schema'.bind f := by
    intro f hf
    have := congrArg (fun o : Option Schema => o.bind f) hs
    have key : ∀ o : Option Schema, (o.map bareSchema).bind f = o.bind f := by
      intro o
      cases o with
      | none => rfl
      | some x => exact hf x
    simpa only [key] using this
  refine ⟨perm_of_lookup ?_ ?_ fun n => ?_, perm_of_lookup ?_ ?_ fun n => ?_, ?_, ?_, ?_, ?_⟩
  · show ((bareMap bareType b.types).map (·.1)).Nodup
    rw [bareMap_keys]; exact hB.typesOnce
  · show ((bareMap bareType b'.types).map (·.1)).Nodup
    rw [bareMap_keys]; exact hB'.typesOnce
  · rw [built_outTypes hB, built_outTypes hB', hs, hd]
  · show ((bareMap bareDirective b.directives).map (·.1)).Nodup
    rw [bareMap_keys]; exact hB.directivesOnce
  · show ((bareMap bareDirective b'.directives).map (·.1)).Nodup
    rw [bareMap_keys]; exact hB'.directivesOnce
  · rw [built_outDirectives hB, built_outDirectives hB', hs, hd]
  · show b.definition.map bareSchemaDef = b'.definition.map bareSchemaDef
    rw [hB.definition, hB'.definition]
    exact congrArg some hdef
  · show b.queryType = b'.queryType
    rw [hB.query, hB'.query, hops, hroot (·.queryType) fun _ => rfl]
  · show b.mutationType = b'.mutationType
    rw [hB.mutation, hB'.mutation, hops, hroot (·.mutationType) fun _ => rfl]
  · show b.subscriptionType = b'.subscriptionType
    rw [hB.subscription, hB'.subscription, hops, hroot (·.subscriptionType) fun _ => rfl]

/-! ### Validation of the schema -/

theorem bare_lookup_type (s : Schema) (n : Bytes) : (bareSchema s).types.lookup n = (s.types.lookup n).map bareType := bareMap_lookup _ _ _

theorem wellFormed_bare {s : Schema} (h : WellFormed s) : WellFormed (bareSchema s) := by
  refine ⟨?_, ?_, ?_⟩
  · show ((bareMap bareType s.types).map (·.1)).Nodup
    rw [bareMap_keys]; exact h.types
  · show ((bareMap bareDirective s.directives).map (·.1)).Nodup
    rw [bareMap_keys]; exact h.directives
  · rw [bare_lookup_type, h.named]; rfl

section
variable (s : Schema)

theorem isKind_bare : IsKind (bareSchema s) = IsKind s := by
  funext n k
  unfold IsKind
  rw [bare_lookup_type]
  cases s.types.lookup n with
  | none => simp
  | some t => exact propext ⟨fun ⟨d, h1, h2⟩ => ⟨t, rfl, by cases h1; exact h2⟩, fun ⟨d, h1, h2⟩ => ⟨bareType t, rfl, by cases h1; exact h2⟩⟩

theorem possible_bare : PossibleType (bareSchema s) = PossibleType s := by
  funext m n
  unfold PossibleType
  rw [bare_lookup_type, bare_lookup_type]
  cases s.types.lookup m with
  | none => simp
  | some x =>
    cases s.types.lookup n with
    | none => simp
    | some y =>
      refine propext ⟨?_, ?_⟩
      · rintro ⟨d, t, h1, h2, h3, h4⟩
        cases h1; cases h2
        exact ⟨x, y, rfl, rfl, h3, h4⟩
      · rintro ⟨d, t, h1, h2, h3, h4⟩
        cases h1; cases h2
        exact ⟨bareType x, bareType y, rfl, rfl, h3, h4⟩

theorem input_bare : InputType (bareSchema s) = InputType s := by funext t; unfold InputType; rw [isKind_bare]
theorem output_bare : OutputType (bareSchema s) = OutputType s := by funext t; unfold OutputType; rw [isKind_bare]

theorem subtype_bare : Subtype (bareSchema s) = Subtype s := by
  funext a b
  refine propext ⟨fun h => ?_, fun h => ?_⟩
  · induction h with
    | refl => exact .refl _
    | same n h => exact .same n h
    | possible h hp => exact .possible h (possible_bare s ▸ hp)
    | list h _ ih => exact .list h ih
  · induction h with
    | refl => exact .refl _
    | same n h => exact .same n h
    | possible h hp => exact .possible h ((possible_bare s).symm ▸ hp)
    | list h _ ih => exact .list h ih

theorem stuck_bare : StuckSub (bareSchema s) = StuckSub s := by
  funext a b
  refine propext ⟨fun h => ?_, fun h => ?_⟩
  · induction h with
    | named h hn ho ha hp => exact .named h hn (isKind_bare s ▸ ho) (isKind_bare s ▸ ha) (possible_bare s ▸ hp)
    | list h _ ih => exact .list h ih
  · induction h with
    | named h hn ho ha hp => exact .named h hn ((isKind_bare s).symm ▸ ho) ((isKind_bare s).symm ▸ ha) ((possible_bare s).symm ▸ hp)
    | list h _ ih => exact .list h ih

theorem fieldErrors_bare (t : TypeDef) : fieldErrors (bareSchema s) (bareType t) = fieldErrors s t := by
  unfold fieldErrors
  rw [input_bare, output_bare]
  have h0 : ((bareType t).fields = []) = (t.fields = []) := by simp [bareType]
  have h1 : (bareType t).fields = t.fields.map bareField := rfl
  have h2 : (bareType t).name = t.name := rfl
  rw [h2]
  congr 1
  · simp only [h0]
  · rw [h1, List.flatMap_map]
    simp only [bareField, List.flatMap_map, List.map_map, Function.comp_def, bareInput]
    rfl

theorem implErrors_bare (t i : TypeDef) : implementationErrors (bareSchema s) (bareType t) (bareType i) = implementationErrors s t i := by
  unfold implementationErrors
  have h1 : (bareType t).fields = t.fields.map bareField := rfl
  have h2 : (bareType i).fields = i.fields.map bareField := rfl
  have h3 : (bareType t).name = t.name := rfl
  have h4 : (bareType i).name = i.name := rfl
  rw [subtype_bare, h1, h2, h3, h4, List.flatMap_map]
  congr 1
  funext f
  rw [show (bareField f).name = f.name from rfl, show (bareField f).type = f.type from rfl, find_bare bareField (·.name) (fun _ => rfl)]
  cases t.fields.find? (fun g => g.name == f.name) <;> rfl

theorem interfaceErrors_bare (t : TypeDef) : interfaceErrors (bareSchema s) (bareType t) = interfaceErrors s t := by
  unfold interfaceErrors
  have hi : interfaces (bareSchema s) (bareType t) = interfaces s t := by unfold interfaces; rw [isKind_bare]; rfl
  have h1 : (bareType t).ifaces = t.ifaces := rfl
  have h2 : (bareType t).name = t.name := rfl
  rw [hi, isKind_bare, h1, h2]
  congr 2
  funext n
  rw [bare_lookup_type]
  cases s.types.lookup n with
  | none => rfl
  | some i => exact implErrors_bare s t i

theorem typeErrors_bare (p : Bytes × TypeDef) : typeErrors (bareSchema s) (p.1, bareType p.2) = typeErrors s p := by
  unfold typeErrors
  rw [fieldErrors_bare, interfaceErrors_bare]
  rfl

theorem directiveDefErrors_bare (p : Bytes × DirDef) : directiveDefErrors (p.1, bareDirective p.2) = directiveDefErrors p := by
  have : (bareDirective p.2).args.map (·.name) = p.2.args.map (·.name) := map_names bareInput (·.name) (fun _ => rfl) p.2.args
  unfold directiveDefErrors
  rw [this]

theorem schemaErrors_bare : schemaErrors (bareSchema s) = schemaErrors s := by
  have h1 : RootMissing (bareSchema s) = RootMissing s := by
    funext r
    unfold RootMissing
    simp only [bare_lookup_type, Option.map_eq_none_iff]
  have h2 : RootNotObject (bareSchema s) = RootNotObject s := by funext r; unfold RootNotObject; rw [isKind_bare]
  have h3 : rootTypeErrs (bareSchema s) = rootTypeErrs s := by unfold rootTypeErrs; rw [h1, h2]; rfl
  have h4 : (bareSchema s).directives = s.directives.map fun p => (p.1, bareDirective p.2) := rfl
  have h5 : (bareSchema s).types = s.types.map fun p => (p.1, bareType p.2) := rfl
  have h6 : typeErrors (bareSchema s) ∘ (fun p : Bytes × TypeDef => (p.1, bareType p.2)) = typeErrors s := funext (typeErrors_bare s)
  unfold schemaErrors
  rw [h3, h4, h5, List.flatMap_map, List.flatMap_map]
  simp only [directiveDefErrors_bare, typeErrors_bare]

theorem complete_bare : Spec.Complete (bareSchema s) ↔ Spec.Complete s := by
  have h5 : (bareSchema s).types = s.types.map fun p => (p.1, bareType p.2) := rfl
  unfold Spec.Complete
  rw [h5]
  refine ⟨fun h p hp hk f hf => ?_, fun h p hp hk f hf => ?_⟩
  · obtain ⟨h1, h2⟩ := h _ (List.mem_map_of_mem hp) hk _ (List.mem_map_of_mem (f := bareField) hf)
    exact ⟨h1, fun a ha => h2 (bareInput a) (List.mem_map_of_mem (f := bareInput) ha)⟩
  · obtain ⟨q, hq, rfl⟩ := List.mem_map.1 hp
    obtain ⟨g, hg, rfl⟩ := List.mem_map.1 hf
    obtain ⟨h1, h2⟩ := h q hq hk g hg
    refine ⟨h1, fun a ha => ?_⟩
    obtain ⟨a', ha', rfl⟩ := List.mem_map.1 ha
    exact h2 a' ha'

theorem settled_bare : Settled (bareSchema s) ↔ Settled s := by
  have h5 : (bareSchema s).types = s.types.map fun p => (p.1, bareType p.2) := rfl
  unfold Settled
  rw [stuck_bare]
  refine ⟨fun h p hp hk t ht i hi hik f hf g hg => ?_, fun h p hp hk t ht i hi hik f hf g hg => ?_⟩
  · refine h (p.1, bareType p.2) (h5 ▸ List.mem_map_of_mem (f := fun p : Bytes × TypeDef => (p.1, bareType p.2)) hp) hk t ht (bareType i) ?_ hik (bareField f) (List.mem_map_of_mem (f := bareField) hf) (bareField g) ?_
    · rw [bare_lookup_type, hi]; rfl
    · show (p.2.fields.map bareField).find? (fun g => g.name == f.name) = _
      rw [find_bare bareField (·.name) (fun _ => rfl), hg]; rfl
  · rw [h5] at hp
    obtain ⟨q, hq, rfl⟩ := List.mem_map.1 hp
    rw [bare_lookup_type] at hi
    cases hx : s.types.lookup (tyName t) with
    | none => rw [hx] at hi; cases hi
    | some j =>
      rw [hx] at hi
      cases hi
      obtain ⟨f', hf', rfl⟩ := List.mem_map.1 hf
      change (q.2.fields.map bareField).find? (fun g => g.name == f'.name) = some g at hg
      rw [find_bare bareField (·.name) (fun _ => rfl)] at hg
      cases hy : q.2.fields.find? (fun g => g.name == f'.name) with
      | none => rw [hy] at hg; cases hg
      | some g' =>
        rw [hy] at hg
        cases hg
        exact h q hq hk t ht j hx hik f' hf' g' hy

end

end GQL
