/-
`ValidateSDL` reports as many errors for a relabelled document.
-/
import Verif.Proofs.Relabel
import Verif.Proofs.Rename
import Verif.Proofs.SdlDoc

namespace GQL
open Spec Classical

/-! ### Lookups -/

theorem lookup_relabel {α β : Type} {k : Bytes → Bytes} (hk : ∀ a b, k a = k b → a = b) (f : α → β) (m : GMap α) (n : Bytes) :
    (m.map fun p => (k p.1, f p.2)).lookup (k n) = (m.lookup n).map f := by
  induction m with
  | nil => rfl
  | cons p m ih =>
    rw [List.map_cons]
    by_cases h : n = p.1
    · subst h; rw [List.lookup_cons, List.lookup_cons]; simp
    · have h2 : k n ≠ k p.1 := fun e => h (hk _ _ e)
      rw [List.lookup_cons, List.lookup_cons, beq_eq_false_iff_ne.2 h2, beq_eq_false_iff_ne.2 h]
      exact ih

theorem find_relabel {α β : Type} {k : Bytes → Bytes} (hk : ∀ a b, k a = k b → a = b) {f : α → β} {name : α → Bytes} {name' : β → Bytes}
    (h : ∀ x, name' (f x) = k (name x)) (l : List α) (n : Bytes) :
    (l.map f).find? (fun x => name' x == k n) = (l.find? fun x => name x == n).map f := by
  induction l with
  | nil => rfl
  | cons x l ih =>
    rw [List.map_cons, List.find?_cons, List.find?_cons, h x]
    by_cases e : name x = n
    · simp [e]
    · have h2 : k (name x) ≠ k n := fun e' => e (hk _ _ e')
      rw [beq_eq_false_iff_ne.2 h2, beq_eq_false_iff_ne.2 e]
      exact ih

/-- Lists of which as many elements satisfy something. -/
theorem length_filter_map {α β : Type} {f : α → β} {p : β → Bool} {q : α → Bool} {l : List α} (h : ∀ x ∈ l, p (f x) = q x) :
    ((l.map f).filter p).length = (l.filter q).length := by
  rw [List.filter_map, List.length_map]
  congr 1
  exact List.filter_congr h

section
variable {r : Relabelling} (d : Document)

theorem nodes_relabel (r : Relabelling) : nodes (r.document d) = (nodes d).map (rlNode r) := by
  unfold nodes
  rw [← rl_docTree, nodes_rlTree]

theorem tyName_relabel (hr : r.Faithful) (t : Ty) : tyName (r.ty t) = r.type (tyName t) := by
  cases t with
  | named n b => rfl
  | list t b => exact hr.noType.symm
  | listNil b => exact hr.noType.symm

theorem typeNames_relabel (hr : r.Faithful) : typeNames (r.document d) = (typeNames d).map r.type := by
  unfold typeNames
  rw [nodes_relabel]
  refine filterMap_map_of _ fun n => ?_
  cases n <;> simp [rlNode, tyName_relabel hr]

theorem directives_relabel : directives (r.document d) = (directives d).map r.dir := by
  unfold directives
  rw [nodes_relabel]
  refine filterMap_map_of _ fun n => ?_
  cases n <;> rfl

theorem directiveLists_relabel : directiveLists (r.document d) = (directiveLists d).map (List.map r.dir) := by
  unfold directiveLists
  rw [nodes_relabel]
  refine filterMap_map_of _ fun n => ?_
  cases n <;> rfl

theorem argumentLists_relabel : argumentLists (r.document d) = (argumentLists d).map (List.map r.input) := by
  unfold argumentLists
  rw [nodes_relabel]
  refine filterMap_map_of _ fun n => ?_
  cases n <;> try rfl
  · simp [rlNode, Relabelling.dir, Relabelling.arg, Function.comp_def]
  · simp [rlNode, Relabelling.dirDef, Relabelling.inputVal, Function.comp_def]
  · simp [rlNode, Relabelling.fieldDef, Relabelling.inputVal, Function.comp_def]
  · rename_i s
    cases s <;> simp [rlNode, Relabelling.sel, Relabelling.arg, Function.comp_def]

theorem inputObjects_relabel : inputObjects (r.document d) = (inputObjects d).map (List.map r.input) := by
  unfold inputObjects
  rw [nodes_relabel]
  refine filterMap_map_of _ fun n => ?_
  cases n <;> try rfl
  rename_i v
  cases v <;> simp [rlNode, Relabelling.value]
  rename_i fs
  induction fs with
  | nil => rfl
  | cons f fs ih => obtain ⟨n, v⟩ := f; simp [Relabelling.pairs, ih]

theorem filterMap_relabel {α : Type} (f : Body → Option α) (g : α → α) (h : ∀ b, f (r.body b) = (f b).map g) (ds : List Definition) :
    (ds.map r.definition).filterMap (fun x => f x.body) = (ds.filterMap fun x => f x.body).map g :=
  filterMap_map_of _ fun x => h x.body

theorem typeDefs_relabel (ds : List Definition) : typeDefs (ds.map r.definition) = (typeDefs ds).map r.typeDef :=
  filterMap_relabel (fun b => match b with | .type t => some t | _ => none) _ (fun b => by cases b <;> rfl) ds
theorem directiveDefs_relabel (ds : List Definition) : directiveDefs (ds.map r.definition) = (directiveDefs ds).map r.dirDef :=
  filterMap_relabel (fun b => match b with | .directive t => some t | _ => none) _ (fun b => by cases b <;> rfl) ds
theorem schemaDefs_relabel (ds : List Definition) : schemaDefs (ds.map r.definition) = (schemaDefs ds).map r.schemaDef :=
  filterMap_relabel (fun b => match b with | .schema t => some t | _ => none) _ (fun b => by cases b <;> rfl) ds
theorem schemaExts_relabel (ds : List Definition) : schemaExts (ds.map r.definition) = (schemaExts ds).map r.schemaDef :=
  filterMap_relabel (fun b => match b with | .schemaExt t => some t | _ => none) _ (fun b => by cases b <;> rfl) ds
theorem typeExts_relabel (ds : List Definition) : typeExts (ds.map r.definition) = (typeExts ds).map r.typeDef :=
  filterMap_relabel (fun b => match b with | .typeExt t => some t | _ => none) _ (fun b => by cases b <;> rfl) ds

theorem rootBlocks_relabel (ds : List Definition) : Spec.rootBlocks (ds.map r.definition) = Spec.rootBlocks ds := by
  unfold Spec.rootBlocks
  refine (filterMap_map_of (k := id) _ fun x => ?_).trans (List.map_id _)
  obtain ⟨l, b⟩ := x
  cases b <;> simp [Relabelling.definition, Relabelling.body, Relabelling.schemaDef, Relabelling.opType, Function.comp_def]

end

/-! ### The schema -/

section
variable {r : Relabelling} (hr : r.Faithful) (schema : Option Schema)

theorem hasRoot_relabel : Spec.hasRoot (schema.map r.schema) = Spec.hasRoot schema := by
  funext k
  cases schema with
  | none => simp [Spec.hasRoot]
  | some s => cases k <;> simp [Spec.hasRoot, Relabelling.schema]

theorem entryErrors_relabel : ∀ (ks seen : List OpKind), Spec.entryErrors (schema.map r.schema) seen ks = Spec.entryErrors schema seen ks
  | [], _ => rfl
  | k :: ks, seen => by rw [Spec.entryErrors, Spec.entryErrors, entryErrors_relabel ks, hasRoot_relabel]

theorem rootErrors_relabel : ∀ (bs : List (Bool × List OpKind)) (seen : List OpKind), Spec.rootErrors (schema.map r.schema) seen bs = Spec.rootErrors schema seen bs
  | [], _ => rfl
  | (false, ks) :: bs, seen => by rw [Spec.rootErrors, Spec.rootErrors, rootErrors_relabel bs]
  | (true, ks) :: bs, seen => by rw [Spec.rootErrors, Spec.rootErrors, rootErrors_relabel bs, entryErrors_relabel]

include hr

theorem schemaTypes_relabel (n : Bytes) : (schemaTypes (schema.map r.schema)).lookup (r.type n) = ((schemaTypes schema).lookup n).map r.typeDef := by
  cases schema with
  | none => rfl
  | some s => exact lookup_relabel hr.type r.typeDef s.types n

theorem schemaDirectives_relabel (n : Bytes) :
    (schemaDirectives (schema.map r.schema)).lookup (r.directive n) = ((schemaDirectives schema).lookup n).map r.dirDef := by
  cases schema with
  | none => rfl
  | some s => exact lookup_relabel hr.directive r.dirDef s.directives n

omit schema in
theorem reserved_iff {n : Bytes} {l : List Bytes} (hl : ∀ x ∈ l, x ∈ reservedTypes) : r.type n ∈ l ↔ n ∈ l := by
  constructor
  · intro h
    have := hr.types _ (hl _ h)
    rw [hr.type _ _ this] at h
    exact h
  · intro h
    rw [hr.types _ (hl _ h)]
    exact h

omit schema in
theorem builtInDirectives_relabel : (builtInDirectives.map fun p => (r.directive p.1, r.dirDef p.2)) = builtInDirectives := by
  have h1 := hr.directives b!"skip" (by decide)
  have h2 := hr.directives b!"include" (by decide)
  have h3 := hr.directives b!"deprecated" (by decide)
  have h4 := hr.inputs b!"if" (by decide)
  have h5 := hr.inputs b!"reason" (by decide)
  have h6 := hr.types b!"Boolean" (by decide)
  have h7 := hr.types b!"String" (by decide)
  simp only [builtInDirectives, List.map_cons, List.map_nil, Relabelling.dirDef, Relabelling.inputVal, Relabelling.ty, h1, h2, h3, h4, h5, h6, h7,
    Option.map_none, Option.map_some, Relabelling.value]

omit schema in
theorem builtInTypes_relabel : (builtInTypes.map fun p => (r.type p.1, r.typeDef p.2)) = builtInTypes := by
  have h6 := hr.types b!"ID" (by decide)
  have h7 := hr.types b!"String" (by decide)
  simp only [builtInTypes, List.map_cons, List.map_nil, Relabelling.typeDef, h6, h7]

omit schema in
theorem builtInDirective_lookup (n : Bytes) : builtInDirectives.lookup (r.directive n) = (builtInDirectives.lookup n).map r.dirDef := by
  have := lookup_relabel hr.directive r.dirDef builtInDirectives n
  rw [builtInDirectives_relabel hr] at this
  exact this

omit schema in
theorem builtInType_lookup (n : Bytes) : builtInTypes.lookup (r.type n) = (builtInTypes.lookup n).map r.typeDef := by
  have := lookup_relabel hr.type r.typeDef builtInTypes n
  rw [builtInTypes_relabel hr] at this
  exact this

theorem directiveDef_relabel (defs : List DirDef) (n : Bytes) :
    directiveDef (schema.map r.schema) (defs.map r.dirDef) (r.directive n) = (directiveDef schema defs n).map r.dirDef := by
  unfold directiveDef
  rw [schemaDirectives_relabel hr, find_relabel hr.directive (f := r.dirDef) (name := (·.name)) (name' := (·.name)) (fun _ => rfl), builtInDirective_lookup hr]
  cases (schemaDirectives schema).lookup n with
  | some x => rfl
  | none => cases List.find? (fun d : DirDef => d.name == n) defs <;> rfl

theorem knownType_relabel (defs : List TypeDef) (n : Bytes) : KnownType (schema.map r.schema) (defs.map r.typeDef) (r.type n) ↔ KnownType schema defs n := by
  unfold KnownType
  rw [schemaTypes_relabel hr, Option.isSome_map, reserved_iff hr (l := builtinScalars) (fun x hx => List.mem_append_left _ hx)]
  refine or_congr Iff.rfl (or_congr ⟨?_, ?_⟩ Iff.rfl)
  · rintro ⟨t, ht, e⟩
    obtain ⟨t', ht', rfl⟩ := List.mem_map.1 ht
    exact ⟨t', ht', hr.type _ _ e⟩
  · rintro ⟨t, ht, e⟩
    exact ⟨_, List.mem_map_of_mem ht, by rw [← e]; rfl⟩

theorem extendedType_relabel (defs : List TypeDef) (n : Bytes) :
    extendedType (schema.map r.schema) (defs.map r.typeDef) (r.type n) = (extendedType schema defs n).map r.typeDef := by
  unfold extendedType
  rw [schemaTypes_relabel hr, find_relabel hr.type (f := r.typeDef) (name := (·.name)) (name' := (·.name)) (fun _ => rfl)]
  cases (schemaTypes schema).lookup n <;> rfl

/-! ### The errors -/

omit hr schema in
theorem length_repeated_map {α β : Type} {k : Bytes → Bytes} (hk : ∀ a b, k a = k b → a = b) (f : Bytes → α) (g : Bytes → β) (l : List Bytes) :
    ((repeated (l.map k)).map f).length = ((repeated l).map g).length := by
  rw [repeated_map hk, List.length_map, List.length_map, List.length_map]

omit schema in
theorem required_relabel (args : List Argument) (v : InputVal) :
    (∃ a ∈ args.map r.arg, a.name = (r.inputVal v).name) ↔ ∃ a ∈ args, a.name = v.name := by
  constructor
  · rintro ⟨a, ha, e⟩
    obtain ⟨a', ha', rfl⟩ := List.mem_map.1 ha
    exact ⟨a', ha', hr.input _ _ e⟩
  · rintro ⟨a, ha, e⟩
    exact ⟨_, List.mem_map_of_mem ha, congrArg r.input e⟩

omit schema in
theorem declared_relabel (vs : List InputVal) (a : Argument) :
    (∃ v ∈ vs.map r.inputVal, v.name = (r.arg a).name) ↔ ∃ v ∈ vs, v.name = a.name := by
  constructor
  · rintro ⟨v, hv, e⟩
    obtain ⟨v', hv', rfl⟩ := List.mem_map.1 hv
    exact ⟨v', hv', hr.input _ _ e⟩
  · rintro ⟨v, hv, e⟩
    exact ⟨_, List.mem_map_of_mem hv, congrArg r.input e⟩

omit schema in
theorem definedNames_relabel (d : Document) : ((definedNames (r.document d)).filter fun n => UnderscoreEarly n).length =
    ((definedNames d).filter fun n => UnderscoreEarly n).length := by
  unfold definedNames
  rw [nodes_relabel]
  induction nodes d with
  | nil => rfl
  | cons n l ih =>
    have st : ∀ {a b : Bytes}, SameStyle a b → decide (UnderscoreEarly a) = decide (UnderscoreEarly b) := fun h => decide_eq_decide.2 h.early
    rw [List.map_cons, List.filterMap_cons, List.filterMap_cons]
    cases n <;> try exact ih
    · rename_i x
      have := st (hr.directiveStyle x.name)
      simp only [rlNode, Relabelling.dirDef, List.filter_cons, this]
      split
      · rw [List.length_cons, List.length_cons, ih]
      · exact ih
    · rename_i x
      have := st (hr.fieldStyle x.name)
      simp only [rlNode, Relabelling.fieldDef, List.filter_cons, this]
      split
      · rw [List.length_cons, List.length_cons, ih]
      · exact ih
    · rename_i x
      have := st (hr.inputStyle x.name)
      simp only [rlNode, Relabelling.inputVal, List.filter_cons, this]
      split
      · rw [List.length_cons, List.length_cons, ih]
      · exact ih
    · rename_i x
      have := st (hr.typeStyle x.name)
      simp only [rlNode, Relabelling.typeDef, List.filter_cons, this]
      split
      · rw [List.length_cons, List.length_cons, ih]
      · exact ih

omit hr schema in
theorem definitionErrors_relabel {β γ : Type} {k : Bytes → Bytes} (hk : ∀ a b, k a = k b → a = b) {m : GMap β} {m' : GMap γ}
    (hm : ∀ n, (m'.lookup (k n)).isSome = (m.lookup n).isSome) (names : List Bytes) (f g : Bytes → GErr) :
    (definitionErrors m' (names.map k) f g).length = (definitionErrors m names f g).length := by
  unfold definitionErrors
  rw [List.length_append, List.length_append]
  congr 1
  · rw [List.length_map, List.length_map]
    exact length_filter_map fun x _ => by simp only [hm]
  · rw [List.filter_map]
    have : ((fun n => decide (¬ (m'.lookup n).isSome = true)) ∘ k) = fun n => decide (¬ (m.lookup n).isSome = true) := by
      funext n; simp only [Function.comp_apply, hm]
    rw [this]
    exact length_repeated_map hk _ _ _

theorem sdlErrors_relabel (d : Document) : (sdlErrors (schema.map r.schema) (r.document d)).length = (sdlErrors schema d).length := by
  have hdd := directiveDef_relabel hr schema (directiveDefs d.defs)
  have e2 : (repeatedDirectiveErrors (r.document d)).length = (repeatedDirectiveErrors d).length := by
    unfold repeatedDirectiveErrors
    rw [directiveLists_relabel, List.flatMap_map]
    refine length_flatMap_congr fun l _ => ?_
    have : (l.map r.dir).map (·.name) = (l.map (·.name)).map r.directive := by simp [Relabelling.dir, Function.comp_def]
    rw [this]
    exact length_repeated_map hr.directive _ _ _
  have e3 : (repeatedArgumentErrors (r.document d)).length = (repeatedArgumentErrors d).length := by
    unfold repeatedArgumentErrors
    rw [argumentLists_relabel, List.flatMap_map]
    exact length_flatMap_congr fun l _ => length_repeated_map hr.input _ _ _
  have e4 : (repeatedInputFieldErrors (r.document d)).length = (repeatedInputFieldErrors d).length := by
    unfold repeatedInputFieldErrors
    rw [inputObjects_relabel, List.flatMap_map]
    exact length_flatMap_congr fun l _ => length_repeated_map hr.input _ _ _
  have hdirs : directiveDefs (r.document d).defs = (directiveDefs d.defs).map r.dirDef := directiveDefs_relabel d.defs
  have htypes : typeDefs (r.document d).defs = (typeDefs d.defs).map r.typeDef := typeDefs_relabel d.defs
  have e5 : ((directives (r.document d)).flatMap fun x => match directiveDef (schema.map r.schema) (directiveDefs (r.document d).defs) x.name with
      | none => []
      | some dd => (reportedArguments dd x.args).map fun a => unknownDirectiveArgError a.name x.name).length =
      ((directives d).flatMap fun x => match directiveDef schema (directiveDefs d.defs) x.name with
      | none => []
      | some dd => (reportedArguments dd x.args).map fun a => unknownDirectiveArgError a.name x.name).length := by
    rw [directives_relabel, List.flatMap_map, hdirs]
    refine length_flatMap_congr fun x _ => ?_
    have hx : (r.dir x).name = r.directive x.name := rfl
    have hax : (r.dir x).args = x.args.map r.arg := rfl
    rw [hx, hdd, hax]
    cases directiveDef schema (directiveDefs d.defs) x.name with
    | none => rfl
    | some dd =>
      dsimp only [Option.map_some]
      rw [List.length_map, List.length_map]
      cases x.args with
      | nil => rfl
      | cons a as =>
        have hda : (∃ v ∈ (r.dirDef dd).args, v.name = (r.arg a).name) ↔ ∃ v ∈ dd.args, v.name = a.name := declared_relabel hr dd.args a
        rw [List.map_cons, reportedArguments, reportedArguments, List.length_append, List.length_append, List.length_map]
        by_cases h : ∃ v ∈ dd.args, v.name = a.name
        · rw [if_pos h, if_pos (hda.2 h)]
        · rw [if_neg h, if_neg (fun h' => h (hda.1 h'))]; try rfl
  have e6 : (directiveErrors (schema.map r.schema) (directiveDefs (r.document d).defs) (r.document d)).length =
      (directiveErrors schema (directiveDefs d.defs) d).length := by
    unfold directiveErrors
    rw [directives_relabel, List.flatMap_map, hdirs]
    refine length_flatMap_congr fun x _ => ?_
    have hx : (r.dir x).name = r.directive x.name := rfl
    rw [hx, hdd]
    cases directiveDef schema (directiveDefs d.defs) x.name with
    | none => rfl
    | some dd =>
      have h1 : (r.dir x).loc = x.loc := rfl
      have h2 : (r.dirDef dd).locs = dd.locs := rfl
      dsimp only [Option.map_some]
      rw [h1, h2]
      split <;> rfl
  have e7 : (unknownTypeErrors (schema.map r.schema) (typeDefs (r.document d).defs) (r.document d)).length =
      (unknownTypeErrors schema (typeDefs d.defs) d).length := by
    unfold unknownTypeErrors
    rw [typeNames_relabel d hr, htypes, List.length_map, List.length_map]
    exact length_filter_map fun n _ => decide_eq_decide.2 (not_congr (knownType_relabel hr schema _ n))
  have e9 : (extensionErrors (schema.map r.schema) (r.document d)).length = (extensionErrors schema d).length := by
    unfold extensionErrors
    have hx : typeExts (r.document d).defs = (typeExts d.defs).map r.typeDef := typeExts_relabel d.defs
    rw [hx, htypes, List.flatMap_map]
    refine length_flatMap_congr fun x _ => ?_
    have hn : (r.typeDef x).name = r.type x.name := rfl
    rw [hn, extendedType_relabel hr]
    cases extendedType schema (typeDefs d.defs) x.name with
    | none => rfl
    | some t =>
      have h1 : (r.typeDef x).kind = x.kind := rfl
      have h2 : (r.typeDef t).kind = t.kind := rfl
      dsimp only [Option.map_some]
      rw [h1, h2]
      split <;> rfl
  have e10 : (missingArgumentErrors (schema.map r.schema) (directiveDefs (r.document d).defs) (r.document d)).length =
      (missingArgumentErrors schema (directiveDefs d.defs) d).length := by
    unfold missingArgumentErrors
    rw [directives_relabel, List.flatMap_map, hdirs]
    refine length_flatMap_congr fun x _ => ?_
    have hx : (r.dir x).name = r.directive x.name := rfl
    have hax : (r.dir x).args = x.args.map r.arg := rfl
    rw [hx, hdd, hax]
    cases directiveDef schema (directiveDefs d.defs) x.name with
    | none => rfl
    | some dd =>
      dsimp only [Option.map_some]
      rw [List.length_map, List.length_map]
      refine length_filter_map (f := r.inputVal) (l := dd.args) fun v _ => ?_
      refine decide_eq_decide.2 (and_congr ?_ (and_congr ?_ (not_congr (required_relabel hr x.args v))))
      · obtain ⟨_, _, t, _, _⟩ := v
        cases t <;> rfl
      · simp [Relabelling.inputVal]
  have e11 : (uniquenessErrors (schema.map r.schema) (r.document d)).length = (uniquenessErrors schema d).length := by
    unfold uniquenessErrors
    have h1 : (typeDefs (r.document d).defs).map (·.name) = ((typeDefs d.defs).map (·.name)).map r.type := by
      rw [htypes]; simp [Relabelling.typeDef, Function.comp_def]
    have h2 : (directiveDefs (r.document d).defs).map (·.name) = ((directiveDefs d.defs).map (·.name)).map r.directive := by
      rw [hdirs]; simp [Relabelling.dirDef, Function.comp_def]
    have h3 : (schemaDefs (r.document d).defs).length = (schemaDefs d.defs).length := by
      rw [show schemaDefs (r.document d).defs = (schemaDefs d.defs).map r.schemaDef from schemaDefs_relabel d.defs, List.length_map]
    rw [h1, h2, h3, Option.isSome_map]
    simp only [List.length_append]
    rw [definitionErrors_relabel hr.type (fun n => by rw [schemaTypes_relabel hr, Option.isSome_map]),
      definitionErrors_relabel hr.directive (fun n => by rw [schemaDirectives_relabel hr, Option.isSome_map])]
  have e1 : rootErrors (schema.map r.schema) [] (rootBlocks (r.document d).defs) = rootErrors schema [] (rootBlocks d.defs) := by
    rw [show rootBlocks (r.document d).defs = rootBlocks d.defs from rootBlocks_relabel d.defs, rootErrors_relabel]
  unfold sdlErrors
  simp only [List.length_append]
  rw [e1, e2, e3, e4, e6, e7, e9, e10, e11, List.length_map, List.length_map, definedNames_relabel hr d]
  exact congrArg (fun x => _ + (_ + (_ + (_ + (x + _))))) e5

end

end GQL
