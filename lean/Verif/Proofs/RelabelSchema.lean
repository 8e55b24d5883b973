/-
The schema that is built, and the validation of schemas, under new names.
-/
import Verif.Proofs.RelabelErrors
import Verif.Proofs.OutlineSchema

namespace GQL
open Spec Classical

theorem lookup_unreached {α β : Type} {k : Bytes → Bytes} (f : α → β) (m : GMap α) {n : Bytes} (hn : ∀ x, k x ≠ n) :
    (m.map fun p => (k p.1, f p.2)).lookup n = none := by
  induction m with
  | nil => rfl
  | cons p m ih =>
    rw [List.map_cons, List.lookup_cons, beq_eq_false_iff_ne.2 fun e => hn _ e.symm]
    exact ih

theorem find_unreached {α β : Type} {k : Bytes → Bytes} {f : α → β} {name : α → Bytes} {name' : β → Bytes} (h : ∀ x, name' (f x) = k (name x))
    (l : List α) {n : Bytes} (hn : ∀ x, k x ≠ n) : (l.map f).find? (fun x => name' x == n) = none := by
  rw [List.find?_eq_none]
  intro x hx
  obtain ⟨y, -, rfl⟩ := List.mem_map.1 hx
  rw [h, beq_iff_eq]
  exact hn _

theorem nodup_map_inj {α : Type} {k : α → α} (hk : ∀ a b, k a = k b → a = b) {l : List α} (h : l.Nodup) : (l.map k).Nodup := by
  induction l with
  | nil => exact h
  | cons x l ih =>
    rw [List.nodup_cons] at h
    rw [List.map_cons, List.nodup_cons]
    refine ⟨fun hx => ?_, ih h.2⟩
    obtain ⟨y, hy, e⟩ := List.mem_map.1 hx
    rw [hk _ _ e] at hy
    exact h.1 hy

/-! ### The schema that is built -/

section
variable {r : Relabelling}

theorem extendedOwn_relabel (t : TypeDef) (es : List TypeDef) : extendedOwn (r.typeDef t) (es.map r.typeDef) = r.typeDef (extendedOwn t es) := by
  have h1 : (es.map r.typeDef).flatMap (·.dirs) = (es.flatMap (·.dirs)).map r.dir := by rw [List.flatMap_map, List.map_flatMap]; rfl
  have h2 : (es.map r.typeDef).flatMap (·.fields) = (es.flatMap (·.fields)).map r.fieldDef := by rw [List.flatMap_map, List.map_flatMap]; rfl
  have h3 : (es.map r.typeDef).flatMap (·.values) = (es.flatMap (·.values)).map r.enumVal := by rw [List.flatMap_map, List.map_flatMap]; rfl
  have h4 : (es.map r.typeDef).flatMap (·.inputs) = (es.flatMap (·.inputs)).map r.inputVal := by rw [List.flatMap_map, List.map_flatMap]; rfl
  have h5 : (es.map r.typeDef).flatMap (·.ifaces) = (es.flatMap (·.ifaces)).map r.ty := by rw [List.flatMap_map, List.map_flatMap]; rfl
  have h6 : (es.map r.typeDef).flatMap (·.members) = (es.flatMap (·.members)).map r.ty := by rw [List.flatMap_map, List.map_flatMap]; rfl
  unfold extendedOwn
  rw [h1, h2, h3, h4, h5, h6]
  simp only [Relabelling.typeDef, after_map]

theorem rootOf_relabel (ops : List OpTypeDef) (k : OpKind) : rootOf (ops.map r.opType) k = (rootOf ops k).map r.ty := by
  unfold rootOf
  rw [← List.map_reverse, List.find?_map, Option.map_map, Option.map_map]
  rfl

variable (hr : r.Faithful)
include hr

theorem extensionsOf_relabel (ds : List Definition) (n : Bytes) : extensionsOf (ds.map r.definition) (r.type n) = (extensionsOf ds n).map r.typeDef := by
  unfold extensionsOf
  rw [typeExts_relabel, List.filter_map]
  congr 1
  refine List.filter_congr fun x _ => ?_
  show (r.type x.name == r.type n) = (x.name == n)
  by_cases h : x.name = n
  · simp [h]
  · rw [beq_eq_false_iff_ne.2 h, beq_eq_false_iff_ne.2 fun e => h (hr.type _ _ e)]

theorem schemaDefinition_relabel (schema : Option Schema) (ds : List Definition) :
    schemaDefinition (schema.map r.schema) (ds.map r.definition) = r.schemaDef (schemaDefinition schema ds) := by
  have h1 : ((schemaExts ds).map r.schemaDef).flatMap (·.dirs) = ((schemaExts ds).flatMap (·.dirs)).map r.dir := by rw [List.flatMap_map, List.map_flatMap]; rfl
  have h2 : ((schemaExts ds).map r.schemaDef).flatMap (·.ops) = ((schemaExts ds).flatMap (·.ops)).map r.opType := by rw [List.flatMap_map, List.map_flatMap]; rfl
  have hq := hr.types b!"Query" (by decide)
  unfold schemaDefinition
  rw [schemaDefs_relabel, schemaExts_relabel, Option.isSome_map, h1, h2, List.head?_map]
  have hd : (⟨[], [⟨.named b!"Query" false, .query⟩]⟩ : SchemaDef) = r.schemaDef ⟨[], [⟨.named b!"Query" false, .query⟩]⟩ := by
    simp [Relabelling.schemaDef, Relabelling.opType, Relabelling.ty, hq]
  cases schema.isSome with
  | true => exact hd
  | false =>
    cases (schemaDefs ds).head? with
    | none => exact hd
    | some d => simp [Relabelling.schemaDef, after_map]

/-- What is built from the new names is what was built, with the new names. -/
theorem built_relabel {schema : Option Schema} {ds : List Definition} {b : Schema} (h : Built schema ds b) :
    Built (schema.map r.schema) (ds.map r.definition) (r.schema b) := by
  have hops : (r.schemaDef (schemaDefinition schema ds)).ops = (schemaDefinition schema ds).ops.map r.opType := rfl
  have hroot : ∀ f : Schema → Option Ty, (∀ s, f (r.schema s) = (f s).map r.ty) → (schema.map r.schema).bind f = (schema.bind f).map r.ty := by
    intro f hf
    cases schema with
    | none => rfl
    | some x => exact hf x
  have hor : ∀ (x y : Option Ty), (x.map r.ty).or (y.map r.ty) = (x.or y).map r.ty := by
    intro x y; cases x <;> rfl
  refine ⟨?_, ?_, fun n => ?_, fun n => ?_, ?_, ?_, ?_, ?_⟩
  · show ((b.types.map fun p => (r.type p.1, r.typeDef p.2)).map (·.1)).Nodup
    rw [List.map_map, show ((·.1) ∘ fun p : Bytes × TypeDef => (r.type p.1, r.typeDef p.2)) = r.type ∘ (·.1) from rfl, ← List.map_map]
    exact nodup_map_inj hr.type h.typesOnce
  · show ((b.directives.map fun p => (r.directive p.1, r.dirDef p.2)).map (·.1)).Nodup
    rw [List.map_map, show ((·.1) ∘ fun p : Bytes × DirDef => (r.directive p.1, r.dirDef p.2)) = r.directive ∘ (·.1) from rfl, ← List.map_map]
    exact nodup_map_inj hr.directive h.directivesOnce
  · show (b.types.map fun p => (r.type p.1, r.typeDef p.2)).lookup n = _
    by_cases hn : ∃ m, r.type m = n
    · obtain ⟨m, rfl⟩ := hn
      rw [lookup_relabel hr.type, h.types, schemaTypes_relabel hr, typeDefs_relabel,
        find_relabel hr.type (f := r.typeDef) (name := (·.name)) (name' := (·.name)) (fun _ => rfl), extensionsOf_relabel hr, Option.isSome_map, Option.isSome_map,
        builtInType_lookup hr]
      cases ((schemaTypes schema).lookup m).isSome with
      | true => rfl
      | false =>
        cases (typeDefs ds).find? (fun t => t.name == m) with
        | some t => simp [extendedOwn_relabel]
        | none => cases schema.isSome <;> rfl
    · have hn' : ∀ x, r.type x ≠ n := fun x e => hn ⟨x, e⟩
      have hb : builtInTypes.lookup n = none := by rw [← builtInTypes_relabel hr]; exact lookup_unreached _ _ hn'
      have hs : (schemaTypes (schema.map r.schema)).lookup n = none := by
        cases schema with
        | none => rfl
        | some s => exact lookup_unreached _ s.types hn'
      rw [lookup_unreached _ _ hn', hs, hb, typeDefs_relabel, find_unreached (f := r.typeDef) (name := (·.name)) (name' := (·.name)) (fun _ => rfl) _ hn']
      simp
  · show (b.directives.map fun p => (r.directive p.1, r.dirDef p.2)).lookup n = _
    by_cases hn : ∃ m, r.directive m = n
    · obtain ⟨m, rfl⟩ := hn
      rw [lookup_relabel hr.directive, h.directives, schemaDirectives_relabel hr, directiveDefs_relabel,
        find_relabel hr.directive (f := r.dirDef) (name := (·.name)) (name' := (·.name)) (fun _ => rfl), Option.isSome_map, Option.isSome_map,
        builtInDirective_lookup hr]
      cases ((schemaDirectives schema).lookup m).isSome with
      | true => rfl
      | false =>
        cases (directiveDefs ds).find? (fun t => t.name == m) with
        | some t => simp
        | none => cases schema.isSome <;> rfl
    · have hn' : ∀ x, r.directive x ≠ n := fun x e => hn ⟨x, e⟩
      have hb : builtInDirectives.lookup n = none := by rw [← builtInDirectives_relabel hr]; exact lookup_unreached _ _ hn'
      have hs : (schemaDirectives (schema.map r.schema)).lookup n = none := by
        cases schema with
        | none => rfl
        | some s => exact lookup_unreached _ s.directives hn'
      rw [lookup_unreached _ _ hn', hs, hb, directiveDefs_relabel, find_unreached (f := r.dirDef) (name := (·.name)) (name' := (·.name)) (fun _ => rfl) _ hn']
      simp
  · show b.definition.map r.schemaDef = _
    rw [h.definition, schemaDefinition_relabel hr]; rfl
  · show b.queryType.map r.ty = _
    rw [h.query, schemaDefinition_relabel hr, hops, rootOf_relabel, hroot (·.queryType) fun _ => rfl, hor]
  · show b.mutationType.map r.ty = _
    rw [h.mutation, schemaDefinition_relabel hr, hops, rootOf_relabel, hroot (·.mutationType) fun _ => rfl, hor]
  · show b.subscriptionType.map r.ty = _
    rw [h.subscription, schemaDefinition_relabel hr, hops, rootOf_relabel, hroot (·.subscriptionType) fun _ => rfl, hor]

/-! ### Validation of the schema -/

theorem ty_inj : ∀ a b : Ty, r.ty a = r.ty b → a = b
  | .named n x, .named m y, h => by
    rw [Relabelling.ty, Relabelling.ty] at h
    injection h with h1 h2
    rw [hr.type _ _ h1, h2]
  | .list t x, .list u y, h => by
    rw [Relabelling.ty, Relabelling.ty] at h
    injection h with h1 h2
    rw [ty_inj t u h1, h2]
  | .listNil x, .listNil y, h => h
  | .named .., .list .., h => by cases h
  | .named .., .listNil .., h => by cases h
  | .list .., .named .., h => by cases h
  | .list .., .listNil .., h => by cases h
  | .listNil .., .named .., h => by cases h
  | .listNil .., .list .., h => by cases h

variable (s : Schema)

theorem relabel_lookup_type (n : Bytes) : (r.schema s).types.lookup (r.type n) = (s.types.lookup n).map r.typeDef := lookup_relabel hr.type _ _ _

theorem wellFormed_relabel {s : Schema} (h : WellFormed s) : WellFormed (r.schema s) := by
  refine ⟨?_, ?_, ?_⟩
  · show ((s.types.map fun p => (r.type p.1, r.typeDef p.2)).map (·.1)).Nodup
    rw [List.map_map, show ((·.1) ∘ fun p : Bytes × TypeDef => (r.type p.1, r.typeDef p.2)) = r.type ∘ (·.1) from rfl, ← List.map_map]
    exact nodup_map_inj hr.type h.types
  · show ((s.directives.map fun p => (r.directive p.1, r.dirDef p.2)).map (·.1)).Nodup
    rw [List.map_map, show ((·.1) ∘ fun p : Bytes × DirDef => (r.directive p.1, r.dirDef p.2)) = r.directive ∘ (·.1) from rfl, ← List.map_map]
    exact nodup_map_inj hr.directive h.directives
  · have := relabel_lookup_type hr s []
    rw [hr.noType, h.named] at this
    exact this

theorem isKind_relabel (n : Bytes) (k : TypeKind) : IsKind (r.schema s) (r.type n) k ↔ IsKind s n k := by
  unfold IsKind
  rw [relabel_lookup_type hr]
  cases s.types.lookup n with
  | none => simp
  | some t => exact ⟨fun ⟨d, h1, h2⟩ => ⟨t, rfl, by cases h1; exact h2⟩, fun ⟨d, h1, h2⟩ => ⟨r.typeDef t, rfl, by cases h1; exact h2⟩⟩

theorem possible_relabel (m n : Bytes) : PossibleType (r.schema s) (r.type m) (r.type n) ↔ PossibleType s m n := by
  unfold PossibleType
  rw [relabel_lookup_type hr, relabel_lookup_type hr]
  cases s.types.lookup m with
  | none => simp
  | some x =>
    cases s.types.lookup n with
    | none => simp
    | some y =>
      have h1 : (.named (r.type n) false ∈ (r.typeDef x).members) ↔ .named n false ∈ x.members := by
        show r.ty (.named n false) ∈ x.members.map r.ty ↔ _
        constructor
        · intro h
          obtain ⟨t, ht, e⟩ := List.mem_map.1 h
          rw [ty_inj hr _ _ e] at ht
          exact ht
        · exact List.mem_map_of_mem
      have h2 : (∃ i ∈ (r.typeDef y).ifaces, tyName i = r.type m) ↔ ∃ i ∈ y.ifaces, tyName i = m := by
        constructor
        · rintro ⟨i, hi, e⟩
          obtain ⟨j, hj, rfl⟩ := List.mem_map.1 hi
          rw [tyName_relabel hr] at e
          exact ⟨j, hj, hr.type _ _ e⟩
        · rintro ⟨i, hi, e⟩
          exact ⟨_, List.mem_map_of_mem hi, by rw [tyName_relabel hr, e]⟩
      refine ⟨?_, ?_⟩
      · rintro ⟨d, t, e1, e2, h3, h4⟩
        cases e1; cases e2
        rw [h1, h2] at h4
        exact ⟨x, y, rfl, rfl, h3, h4⟩
      · rintro ⟨d, t, e1, e2, h3, h4⟩
        cases e1; cases e2
        refine ⟨r.typeDef x, r.typeDef y, rfl, rfl, h3, ?_⟩
        rw [h1, h2]
        exact h4

omit s hr in
theorem innerName_relabel : ∀ t : Ty, innerName (r.ty t) = (innerName t).map r.type
  | .named _ _ => rfl
  | .list t _ => innerName_relabel t
  | .listNil _ => rfl

theorem inner_relabel (t : Ty) (p q : Bytes → Prop) (h : ∀ n, p (r.type n) ↔ q n) : (∃ n, innerName (r.ty t) = some n ∧ p n) ↔ ∃ n, innerName t = some n ∧ q n := by
  rw [innerName_relabel]
  cases innerName t with
  | none => simp
  | some x => simp [h]

theorem input_relabel (t : Ty) : InputType (r.schema s) (r.ty t) ↔ InputType s t := by
  unfold InputType
  exact inner_relabel hr t _ _ fun n => by rw [isKind_relabel hr, isKind_relabel hr, isKind_relabel hr]
theorem output_relabel (t : Ty) : OutputType (r.schema s) (r.ty t) ↔ OutputType s t := by
  unfold OutputType
  exact inner_relabel hr t _ _ fun n => by rw [isKind_relabel hr, isKind_relabel hr, isKind_relabel hr, isKind_relabel hr, isKind_relabel hr]

theorem subtype_relabel (a b : Ty) : Subtype (r.schema s) (r.ty a) (r.ty b) ↔ Subtype s a b := by
  constructor
  · intro h
    generalize ha : r.ty a = a' at h
    generalize hb : r.ty b = b' at h
    induction h generalizing a b with
    | refl => rw [ty_inj hr a b (ha.trans hb.symm)]; exact .refl _
    | same n h =>
      cases a <;> cases ha
      cases b <;> simp only [Relabelling.ty, Ty.named.injEq, reduceCtorEq] at hb
      obtain ⟨h1, rfl⟩ := hb
      rw [hr.type _ _ h1]
      exact .same _ h
    | possible h hp =>
      cases a <;> cases ha
      cases b <;> cases hb
      exact .possible h ((possible_relabel hr s _ _).1 hp)
    | list h _ ih =>
      cases a <;> cases ha
      cases b <;> cases hb
      exact .list h (ih _ _ rfl rfl)
  · intro h
    induction h with
    | refl => exact .refl _
    | same n h => exact .same _ h
    | possible h hp => exact .possible h ((possible_relabel hr s _ _).2 hp)
    | list h _ ih => exact .list h ih

theorem stuck_relabel (a b : Ty) : StuckSub (r.schema s) (r.ty a) (r.ty b) ↔ StuckSub s a b := by
  constructor
  · intro h
    generalize ha : r.ty a = a' at h
    generalize hb : r.ty b = b' at h
    induction h generalizing a b with
    | named h hn ho hi hp =>
      cases a <;> cases ha
      cases b <;> cases hb
      simp only [isKind_relabel hr, possible_relabel hr] at ho hi hp
      exact .named h (fun e => hn (congrArg r.type e)) ho hi hp
    | list h _ ih =>
      cases a <;> cases ha
      cases b <;> cases hb
      exact .list h (ih _ _ rfl rfl)
  · intro h
    induction h with
    | named h hn ho hi hp =>
      refine .named h (fun e => hn (hr.type _ _ e)) ?_ ?_ ?_
      · rwa [isKind_relabel hr]
      · rwa [isKind_relabel hr, isKind_relabel hr]
      · rwa [possible_relabel hr]
    | list h _ ih => exact .list h ih

omit hr s in
theorem nameErrors_style {a b : Bytes} (h : SameStyle a b) : (nameErrors a).length = (nameErrors b).length := by
  unfold nameErrors
  by_cases h1 : Reserved b
  · rw [if_pos h1, if_pos (h.reserved.2 h1)]; rfl
  · rw [if_neg h1, if_neg fun x => h1 (h.reserved.1 x)]
    by_cases h2 : ValidName b
    · rw [if_pos h2, if_pos (h.valid.2 h2)]
    · rw [if_neg h2, if_neg fun x => h2 (h.valid.1 x)]; rfl

omit hr s in
theorem length_ite_iff {α β : Type} {p q : Prop} [Decidable p] [Decidable q] (h : p ↔ q) {a b : List α} {c d : List β} (h1 : a.length = c.length) (h2 : b.length = d.length) :
    (if p then a else b).length = (if q then c else d).length := by
  by_cases hq : q
  · rw [if_pos hq, if_pos (h.2 hq)]; exact h1
  · rw [if_neg hq, if_neg fun x => hq (h.1 x)]; exact h2

theorem fieldErrors_relabel (t : TypeDef) : (fieldErrors (r.schema s) (r.typeDef t)).length = (fieldErrors s t).length := by
  unfold fieldErrors
  have h1 : (r.typeDef t).fields = t.fields.map r.fieldDef := rfl
  rw [h1, List.length_append, List.length_append, List.flatMap_map]
  congr 1
  · exact length_ite_iff (by simp) rfl rfl
  · refine length_flatMap_congr fun f _ => ?_
    have h2 : (r.fieldDef f).args = f.args.map r.inputVal := rfl
    have h3 : (f.args.map r.inputVal).map (·.name) = (f.args.map (·.name)).map r.input := by simp [Relabelling.inputVal, Function.comp_def]
    rw [h2, h3, List.flatMap_map]
    simp only [List.length_append]
    congr 1
    · congr 1
      · congr 1
        · exact nameErrors_style (hr.fieldStyle f.name)
        · exact length_ite_iff (output_relabel hr s f.type) rfl rfl
      · refine length_flatMap_congr fun a _ => ?_
        rw [List.length_append, List.length_append]
        congr 1
        · exact nameErrors_style (hr.inputStyle a.name)
        · exact length_ite_iff (input_relabel hr s a.type) rfl rfl
    · exact length_repeated_map hr.input _ _ _

theorem implErrors_relabel (t i : TypeDef) : (implementationErrors (r.schema s) (r.typeDef t) (r.typeDef i)).length = (implementationErrors s t i).length := by
  unfold implementationErrors
  have h1 : (r.typeDef t).fields = t.fields.map r.fieldDef := rfl
  have h2 : (r.typeDef i).fields = i.fields.map r.fieldDef := rfl
  rw [h1, h2, List.flatMap_map]
  refine length_flatMap_congr fun f _ => ?_
  rw [show (r.fieldDef f).name = r.field f.name from rfl, find_relabel hr.field (f := r.fieldDef) (name := (·.name)) (name' := (·.name)) (fun _ => rfl)]
  cases t.fields.find? (fun g => g.name == f.name) with
  | none => rfl
  | some g => exact length_ite_iff (subtype_relabel hr s g.type f.type) rfl rfl

theorem interfaceErrors_relabel (t : TypeDef) : (interfaceErrors (r.schema s) (r.typeDef t)).length = (interfaceErrors s t).length := by
  have hm : (r.typeDef t).ifaces.map tyName = (t.ifaces.map tyName).map r.type := by
    show (t.ifaces.map r.ty).map tyName = _
    rw [List.map_map, List.map_map]
    exact List.map_congr_left fun x _ => tyName_relabel hr x
  have hi : interfaces (r.schema s) (r.typeDef t) = (interfaces s t).map r.type := by
    unfold interfaces
    rw [hm, List.filter_map]
    congr 1
    exact List.filter_congr fun n _ => decide_eq_decide.2 (isKind_relabel hr s n _)
  unfold interfaceErrors
  rw [hi, hm]
  simp only [List.length_append]
  congr 1
  · congr 1
    · rw [List.length_map, List.length_map]
      exact length_filter_map fun n _ => decide_eq_decide.2 (not_congr (isKind_relabel hr s n _))
    · exact length_repeated_map hr.type _ _ _
  · rw [eraseDups_map_inj hr.type _ _ (Nat.le_refl _), List.flatMap_map]
    refine length_flatMap_congr fun n _ => ?_
    rw [relabel_lookup_type hr]
    cases s.types.lookup n with
    | none => rfl
    | some i => exact implErrors_relabel hr s t i

theorem typeErrors_relabel (p : Bytes × TypeDef) : (typeErrors (r.schema s) (r.type p.1, r.typeDef p.2)).length = (typeErrors s p).length := by
  unfold typeErrors
  simp only [List.length_append]
  congr 1
  · congr 1
    · exact length_ite_iff (reserved_iff hr fun x hx => List.mem_append_right _ (List.mem_cons_of_mem _ hx)) rfl (nameErrors_style (hr.typeStyle p.1))
    · exact length_ite_iff Iff.rfl (fieldErrors_relabel hr s p.2) rfl
  · exact length_ite_iff Iff.rfl (interfaceErrors_relabel hr s p.2) rfl

omit s in
theorem directiveDefErrors_relabel (p : Bytes × DirDef) : (directiveDefErrors (r.directive p.1, r.dirDef p.2)).length = (directiveDefErrors p).length := by
  have h3 : (r.dirDef p.2).args.map (·.name) = (p.2.args.map (·.name)).map r.input := by simp [Relabelling.dirDef, Relabelling.inputVal, Function.comp_def]
  unfold directiveDefErrors
  rw [h3]
  simp only [List.length_append]
  congr 1
  · congr 1
    · exact nameErrors_style (hr.directiveStyle p.1)
    · rw [eraseDups_map_inj hr.input _ _ (Nat.le_refl _), List.flatMap_map]
      exact length_flatMap_congr fun n _ => nameErrors_style (hr.inputStyle n)
  · exact length_repeated_map hr.input _ _ _

theorem schemaErrors_relabel : (schemaErrors (r.schema s)).length = (schemaErrors s).length := by
  have h1 : ∀ o : Option Ty, RootMissing (r.schema s) (o.map r.ty) ↔ RootMissing s o := by
    intro o
    unfold RootMissing
    cases o with
    | none => simp
    | some t =>
      have : (r.schema s).types.lookup (tyName (r.ty t)) = none ↔ s.types.lookup (tyName t) = none := by
        rw [tyName_relabel hr, relabel_lookup_type hr, Option.map_eq_none_iff]
      exact ⟨fun h u e => by cases e; exact this.1 (h _ rfl), fun h u e => by cases e; exact this.2 (h _ rfl)⟩
  have h2 : ∀ o : Option Ty, RootNotObject (r.schema s) (o.map r.ty) ↔ RootNotObject s o := by
    intro o
    unfold RootNotObject
    cases o with
    | none => simp
    | some t => simp [tyName_relabel hr, isKind_relabel hr]
  have h4 : (r.schema s).directives = s.directives.map fun p => (r.directive p.1, r.dirDef p.2) := rfl
  have h5 : (r.schema s).types = s.types.map fun p => (r.type p.1, r.typeDef p.2) := rfl
  unfold schemaErrors
  rw [h4, h5, List.flatMap_map, List.flatMap_map]
  simp only [List.length_append]
  congr 1
  · congr 1
    · unfold rootTypeErrs
      simp only [List.length_append]
      congr 1
      · congr 1
        · congr 1
          · exact length_ite_iff (h1 s.queryType) rfl rfl
          · exact length_ite_iff (h2 s.queryType) rfl rfl
        · exact length_ite_iff (h2 s.mutationType) rfl rfl
      · exact length_ite_iff (h2 s.subscriptionType) rfl rfl
    · exact length_flatMap_congr fun p _ => directiveDefErrors_relabel hr p
  · exact length_flatMap_congr fun p _ => typeErrors_relabel hr s p

omit hr in
theorem complete_relabel : Spec.Complete (r.schema s) ↔ Spec.Complete s := by
  have h5 : (r.schema s).types = s.types.map fun p => (r.type p.1, r.typeDef p.2) := rfl
  have hn : ∀ t : Ty, (innerName (r.ty t)).isSome = (innerName t).isSome := fun t => by rw [innerName_relabel, Option.isSome_map]
  unfold Spec.Complete
  rw [h5]
  refine ⟨fun h p hp hk f hf => ?_, fun h p hp hk f hf => ?_⟩
  · obtain ⟨h1, h2⟩ := h _ (List.mem_map_of_mem hp) hk _ (List.mem_map_of_mem (f := r.fieldDef) hf)
    exact ⟨hn _ ▸ h1, fun a ha => hn _ ▸ h2 (r.inputVal a) (List.mem_map_of_mem (f := r.inputVal) ha)⟩
  · obtain ⟨q, hq, rfl⟩ := List.mem_map.1 hp
    obtain ⟨g, hg, rfl⟩ := List.mem_map.1 hf
    obtain ⟨h1, h2⟩ := h q hq hk g hg
    refine ⟨(hn g.type).trans h1, fun a ha => ?_⟩
    obtain ⟨a', ha', rfl⟩ := List.mem_map.1 ha
    exact (hn a'.type).trans (h2 a' ha')

theorem settled_relabel : Settled (r.schema s) ↔ Settled s := by
  have h5 : (r.schema s).types = s.types.map fun p => (r.type p.1, r.typeDef p.2) := rfl
  have hf := fun (l : List FieldDef) (n : Bytes) =>
    find_relabel hr.field (f := r.fieldDef) (name := (·.name)) (name' := (·.name)) (fun _ => rfl) l n
  unfold Settled
  refine ⟨fun h p hp hk t ht i hi hik f hff g hg => ?_, fun h p hp hk t ht i hi hik f hff g hg => ?_⟩
  · have := h (r.type p.1, r.typeDef p.2) (h5 ▸ List.mem_map_of_mem (f := fun p : Bytes × TypeDef => (r.type p.1, r.typeDef p.2)) hp) hk (r.ty t)
      (List.mem_map_of_mem (f := r.ty) ht) (r.typeDef i) (by rw [tyName_relabel hr, relabel_lookup_type hr, hi]; rfl) hik (r.fieldDef f)
      (List.mem_map_of_mem (f := r.fieldDef) hff) (r.fieldDef g) ((hf p.2.fields f.name).trans (by rw [hg]; rfl))
    exact fun hst => this ((stuck_relabel hr s _ _).2 hst)
  · rw [h5] at hp
    obtain ⟨q, hq, rfl⟩ := List.mem_map.1 hp
    obtain ⟨u, hu, rfl⟩ := List.mem_map.1 ht
    rw [tyName_relabel hr, relabel_lookup_type hr] at hi
    cases hx : s.types.lookup (tyName u) with
    | none => rw [hx] at hi; cases hi
    | some j =>
      rw [hx] at hi
      cases hi
      obtain ⟨f', hf', rfl⟩ := List.mem_map.1 hff
      have hg' := (hf q.2.fields f'.name).symm.trans hg
      cases hy : q.2.fields.find? (fun g => g.name == f'.name) with
      | none => rw [hy] at hg'; cases hg'
      | some g' =>
        rw [hy] at hg'
        cases hg'
        exact fun hst => h q hq hk u hu j hx hik f' hf' g' hy ((stuck_relabel hr s _ _).1 hst)

end

end GQL
