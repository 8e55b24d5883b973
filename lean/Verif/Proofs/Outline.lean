/-
Validation sees the outline of a document only.
-/
import Verif.Spec.Outline
import Verif.Props.C29

namespace GQL
open Spec

/-- The outline of a definition: without its place in the text. -/
def bareDefinition (d : Definition) : Definition := ⟨⟨0, 0⟩, bareBody d.body⟩

/-- The outline of a document. -/
def bareDocument (d : Document) : Document := { defs := d.defs.map bareDefinition, operations := d.operations }

/-- The outline of a node. -/
def bareNode : ANode → ANode
  | .argument a => .argument (bareArg a)
  | .arguments as => .arguments (as.map bareArg)
  | .booleanValue v => .nullValue (bareVal v)
  | .definition i d => .definition i (bareDefinition d)
  | .definitions ds => .definitions (ds.map bareDefinition)
  | .directive d => .directive (bareDir d)
  | .directiveDefinition d => .directiveDefinition (bareDirective d)
  | .directives ds => .directives (ds.map bareDir)
  | .document d => .document (bareDocument d)
  | .enumTypeDefinition t => .enumTypeDefinition (bareType t)
  | .enumTypeExtension t => .enumTypeExtension (bareType t)
  | .enumValue v => .nullValue (bareVal v)
  | .enumValueDefinition v => .enumValueDefinition (bareEnum v)
  | .enumValueDefinitions vs => .enumValueDefinitions (vs.map bareEnum)
  | .executableDefinition i b => .executableDefinition i (bareBody b)
  | .fieldDefinition f => .fieldDefinition (bareField f)
  | .fieldDefinitions fs => .fieldDefinitions (fs.map bareField)
  | .fieldSelection s => .fieldSelection (bareSel s)
  | .floatValue v => .nullValue (bareVal v)
  | .fragmentDefinition f => .fragmentDefinition (bareFrag f)
  | .fragmentSpreadSelection s => .fragmentSpreadSelection (bareSel s)
  | .inlineFragmentSelection s => .inlineFragmentSelection (bareSel s)
  | .inputObjectTypeDefinition t => .inputObjectTypeDefinition (bareType t)
  | .inputObjectTypeExtension t => .inputObjectTypeExtension (bareType t)
  | .inputValueDefinition v => .inputValueDefinition (bareInput v)
  | .inputValueDefinitions vs => .inputValueDefinitions (vs.map bareInput)
  | .intValue v => .nullValue (bareVal v)
  | .interfaceTypeDefinition t => .interfaceTypeDefinition (bareType t)
  | .interfaceTypeExtension t => .interfaceTypeExtension (bareType t)
  | .listType t => .listType t
  | .listValue v => .listValue (bareVal v)
  | .mutationOperationDefinition o => .mutationOperationDefinition (bareOp o)
  | .namedType t => .namedType t
  | .nullValue v => .nullValue (bareVal v)
  | .objectField n v => .objectField n (bareVal v)
  | .objectTypeDefinition t => .objectTypeDefinition (bareType t)
  | .objectTypeExtension t => .objectTypeExtension (bareType t)
  | .objectValue v => .objectValue (bareVal v)
  | .operationDefinition i o => .operationDefinition i (bareOp o)
  | .operationTypeDefinition o => .operationTypeDefinition o
  | .operationTypeDefinitions os => .operationTypeDefinitions os
  | .queryOperationDefinition o => .queryOperationDefinition (bareOp o)
  | .scalarTypeDefinition t => .scalarTypeDefinition (bareType t)
  | .scalarTypeExtension t => .scalarTypeExtension (bareType t)
  | .schemaDefinition s => .schemaDefinition (bareSchemaDef s)
  | .schemaExtension s => .schemaExtension (bareSchemaDef s)
  | .selection s => .selection (bareSel s)
  | .selections ss => .selections (bareSels ss)
  | .stringValue v => .nullValue (bareVal v)
  | .subscriptionOperationDefinition o => .subscriptionOperationDefinition (bareOp o)
  | .type t => .type t
  | .typeCondition t => .typeCondition t
  | .typeDefinition t => .typeDefinition (bareType t)
  | .typeExtension t => .typeExtension (bareType t)
  | .typeSystemDefinition b => .typeSystemDefinition (bareBody b)
  | .typeSystemExtension b => .typeSystemExtension (bareBody b)
  | .types ts => .types ts
  | .unionTypeDefinition t => .unionTypeDefinition (bareType t)
  | .unionTypeExtension t => .unionTypeExtension (bareType t)
  | .value v => .value (bareVal v)
  | .variableDefinition v => .variableDefinition (bareVar v)
  | .variableDefinitions vs => .variableDefinitions (vs.map bareVar)
  | .variableValue v => .variableValue (bareVal v)

mutual
/-- The tree with the outlines of its nodes. -/
def bareTree : Tree → Tree
  | .node n ks => .node (bareNode n) (bareTrees ks)
def bareTrees : List Tree → List Tree
  | [] => []
  | t :: ts => bareTree t :: bareTrees ts
end

/-- The outline of an event. -/
def bareEvent : Event → Event
  | .enter n => .enter (bareNode n)
  | .leave n => .leave (bareNode n)

mutual
theorem trace_bareTree : ∀ t : Tree, (bareTree t).trace = t.trace.map bareEvent
  | .node n ks => by simp [bareTree, Tree.trace, trace_bareTrees ks, bareEvent]
theorem trace_bareTrees : ∀ ts : List Tree, traceAll (bareTrees ts) = (traceAll ts).map bareEvent
  | [] => rfl
  | t :: ts => by rw [bareTrees, traceAll, traceAll, trace_bareTree t, trace_bareTrees ts, List.map_append]
end

mutual
theorem nodes_bareTree : ∀ t : Tree, (bareTree t).nodes = t.nodes.map bareNode
  | .node n ks => by simp [bareTree, Tree.nodes, nodes_bareTrees ks]
theorem nodes_bareTrees : ∀ ts : List Tree, nodesAll (bareTrees ts) = (nodesAll ts).map bareNode
  | [] => rfl
  | t :: ts => by rw [bareTrees, nodesAll, nodesAll, nodes_bareTree t, nodes_bareTrees ts, List.map_append]
end

theorem bareTrees_append (a b : List Tree) : bareTrees (a ++ b) = bareTrees a ++ bareTrees b := by
  induction a with
  | nil => rfl
  | cons t a ih => simp [bareTrees, ih]

theorem bareTrees_map {α : Type} (f : α → Tree) (l : List α) : bareTrees (l.map f) = l.map fun x => bareTree (f x) := by
  induction l with
  | nil => rfl
  | cons t a ih => simp [bareTrees, ih]

theorem bare_group {α : Type} {mk : List α → ANode} {item : α → Tree} (g : α → α) (h1 : ∀ l, bareNode (mk l) = mk (l.map g))
    (h2 : ∀ x, bareTree (item x) = item (g x)) (l : List α) : bareTrees (group mk item l) = group mk item (l.map g) := by
  unfold group
  cases l with
  | nil => rfl
  | cons a l => simp [bareTrees, bareTree, bareTrees_map, h1, h2]

theorem bare_group_same {α : Type} {mk : List α → ANode} {item : α → Tree} (h1 : ∀ l, bareNode (mk l) = mk l)
    (h2 : ∀ x, bareTree (item x) = item x) (l : List α) : bareTrees (group mk item l) = group mk item l := by
  unfold group
  cases l with
  | nil => rfl
  | cons a l => simp [bareTrees, bareTree, bareTrees_map, h1, h2]

theorem bare_tyTree (t : Ty) : bareTree (tyTree t) = tyTree t := by
  induction t with
  | named n b => rfl
  | list t b ih => simp [tyTree, bareTree, bareTrees, ih, bareNode]
  | listNil b => rfl

theorem bare_condTree (t : Ty) : bareTree (condTree t) = condTree t := by
  simp [condTree, bareTree, bareTrees, bare_tyTree, bareNode]

mutual
theorem bare_valueTree : ∀ v : Value, bareTree (valueTree v) = valueTree (bareVal v)
  | .var n => by simp [valueTree, bareVal, bareTree, bareTrees, bareNode]
  | .int i => by simp [valueTree, bareVal, bareTree, bareTrees, bareNode]
  | .float f => by simp [valueTree, bareVal, bareTree, bareTrees, bareNode]
  | .str s => by simp [valueTree, bareVal, bareTree, bareTrees, bareNode]
  | .bool b => by simp [valueTree, bareVal, bareTree, bareTrees, bareNode]
  | .null => by simp [valueTree, bareVal, bareTree, bareTrees, bareNode]
  | .enum n => by simp [valueTree, bareVal, bareTree, bareTrees, bareNode]
  | .list vs => by simp [valueTree, bareVal, bareTree, bareTrees, bareNode, bare_valueTrees vs]
  | .obj fs => by simp [valueTree, bareVal, bareTree, bareTrees, bareNode, bare_fieldTrees fs]
theorem bare_valueTrees : ∀ vs : List Value, bareTrees (valueTrees vs) = valueTrees (bareVals vs)
  | [] => rfl
  | v :: vs => by simp [valueTrees, bareVals, bareTrees, bare_valueTree v, bare_valueTrees vs]
theorem bare_fieldTrees : ∀ fs : List (Bytes × Value), bareTrees (fieldTrees fs) = fieldTrees (bareFlds fs)
  | [] => rfl
  | (n, v) :: fs => by simp [fieldTrees, bareFlds, bareTrees, bareTree, bareNode, bare_valueTree v, bare_fieldTrees fs]
end

theorem bare_argTree (a : Argument) : bareTree (argTree a) = argTree (bareArg a) := by
  simp [argTree, bareTree, bareTrees, bare_valueTree, bareNode, bareArg]

theorem bare_dirTree (d : Directive) : bareTree (dirTree d) = dirTree (bareDir d) := by
  simp [dirTree, bareTree, bareNode, bare_group (mk := .arguments) bareArg (fun _ => rfl) bare_argTree, bareDir]

theorem bare_dirs (ds : List Directive) : bareTrees (group .directives dirTree ds) = group .directives dirTree (ds.map bareDir) :=
  bare_group bareDir (fun _ => rfl) bare_dirTree ds

theorem bareSels_isEmpty (ss : List Selection) : (bareSels ss).isEmpty = ss.isEmpty := by cases ss <;> rfl

mutual
theorem bare_selTree : ∀ s : Selection, bareTree (selTree s) = selTree (bareSel s)
  | .field al n as ds ss => by
    have := bare_selTrees ss
    simp only [selTree, bareSel, bareTree, bareTrees, bareNode, bareTrees_append, bare_group (mk := .arguments) bareArg (fun _ => rfl) bare_argTree,
      bare_dirs, bareSels_isEmpty]
    by_cases h : ss.isEmpty = true
    · simp [h, bareTrees]
    · simp [h, bareTrees, bareTree, bareNode, this]
  | .spread n ds => by
    simp only [selTree, bareSel, bareTree, bareTrees, bareNode, bare_dirs]
  | .inline c ds ss => by
    have := bare_selTrees ss
    have hc : bareTrees (c.toList.map condTree) = c.toList.map condTree := by
      cases c <;> simp [bareTrees, bare_condTree]
    simp only [selTree, bareSel, bareTree, bareTrees, bareNode, bareTrees_append, hc, bare_dirs, bareSels_isEmpty]
    by_cases h : ss.isEmpty = true
    · simp [h, bareTrees]
    · simp [h, bareTrees, bareTree, bareNode, this]
theorem bare_selTrees : ∀ ss : List Selection, bareTrees (selTrees ss) = selTrees (bareSels ss)
  | [] => rfl
  | s :: ss => by simp [selTrees, bareSels, bareTrees, bare_selTree s, bare_selTrees ss]
end

theorem bare_selSet (ss : List Selection) : bareTrees (selSet ss) = selSet (bareSels ss) := by
  unfold selSet
  rw [bareSels_isEmpty]
  by_cases h : ss.isEmpty = true
  · simp [h, bareTrees]
  · simp [h, bareTrees, bareTree, bareNode, bare_selTrees]

theorem bare_varDefTree (v : VarDef) : bareTree (varDefTree v) = varDefTree (bareVar v) := by
  obtain ⟨n, t, d⟩ := v
  cases d <;> simp [varDefTree, bareTree, bareTrees, bareNode, bare_tyTree, bare_valueTree, bareVar]

theorem bare_opTree (i : Nat) (o : OpDef) : bareTree (opTree i o) = opTree i (bareOp o) := by
  obtain ⟨k, n, vs, ds, ss⟩ := o
  cases k <;> simp [opTree, bareTree, bareTrees, bareNode, bareTrees_append, bare_group (mk := .variableDefinitions) bareVar (fun _ => rfl) bare_varDefTree,
    bare_dirs, bare_selSet, bareOp]

theorem bare_fragTree (f : FragDef) : bareTree (fragTree f) = fragTree (bareFrag f) := by
  simp [fragTree, bareTree, bareTrees, bareNode, bareTrees_append, bare_condTree, bare_dirs, bare_selSet, bareFrag]

section
variable (src : Bool)

theorem bare_inputTree (v : InputVal) : bareTree (inputValueTree src v) = inputValueTree src (bareInput v) := by
  obtain ⟨x, n, t, ds, d⟩ := v
  cases d <;> cases src <;> simp [inputValueTree, bareTree, bareTrees, bareTrees_append, bareNode, bare_tyTree, bare_valueTree, bareInput, bare_dirs]

theorem bare_inputs (vs : List InputVal) : bareTrees (group .inputValueDefinitions (inputValueTree src) vs) =
    group .inputValueDefinitions (inputValueTree src) (vs.map bareInput) := bare_group bareInput (fun _ => rfl) (bare_inputTree src) vs

theorem bare_fieldTree (f : FieldDef) : bareTree (fieldDefTree src f) = fieldDefTree src (bareField f) := by
  simp [fieldDefTree, bareTree, bareTrees, bareTrees_append, bareNode, bare_tyTree, bare_inputs, bare_dirs, bareField]

theorem bare_enumTree (v : EnumVal) : bareTree (enumValTree v) = enumValTree (bareEnum v) := by
  simp [enumValTree, bareTree, bareNode, bare_dirs, bareEnum]

theorem bare_types (ts : List Ty) : bareTrees (group .types tyTree ts) = group .types tyTree ts := bare_group_same (fun _ => rfl) bare_tyTree ts

theorem bare_typeMembers (t : TypeDef) : bareTrees (typeMembers src t) = typeMembers src (bareType t) := by
  simp only [typeMembers, bareTrees_append, bare_types, bare_inputs, bare_group (mk := .fieldDefinitions) bareField (fun _ => rfl) (bare_fieldTree src),
    bare_group (mk := .enumValueDefinitions) bareEnum (fun _ => rfl) bare_enumTree]
  rfl

theorem bare_typeDefTree (t : TypeDef) : bareTree (typeDefTree src t) = typeDefTree src (bareType t) := by
  have hk : (bareType t).kind = t.kind := rfl
  have h1 : (bareType t).ifaces = t.ifaces := rfl
  have h2 : (bareType t).dirs = t.dirs.map bareDir := rfl
  unfold typeDefTree
  rw [hk, h1, h2]
  cases t.kind <;> simp only [bareTree, bareTrees, bareTrees_append, bareNode, bare_types, bare_dirs, bare_typeMembers]

theorem bare_typeExtTree (t : TypeDef) : bareTree (typeExtTree src t) = typeExtTree src (bareType t) := by
  have hk : (bareType t).kind = t.kind := rfl
  have h1 : (bareType t).ifaces = t.ifaces := rfl
  have h2 : (bareType t).dirs = t.dirs.map bareDir := rfl
  unfold typeExtTree
  rw [hk, h1, h2]
  cases t.kind <;> cases src <;> simp [bareTree, bareTrees, bareTrees_append, bareNode, bare_types, bare_dirs, bare_typeMembers]

theorem bare_schemaKids (s : SchemaDef) : bareTrees (schemaKids s) = schemaKids (bareSchemaDef s) := by
  have : ∀ o : OpTypeDef, bareTree (opTypeTree o) = opTypeTree o := fun o => by simp [opTypeTree, bareTree, bareTrees, bareNode, bare_tyTree]
  simp [schemaKids, bareTrees_append, bare_dirs, bare_group_same (mk := .operationTypeDefinitions) (fun _ => rfl) this, bareSchemaDef]

theorem bare_defTree (i : Nat) (d : Definition) : bareTree (defTree src i d) = defTree src i (bareDefinition d) := by
  obtain ⟨l, b⟩ := d
  cases b <;> simp [defTree, bareTree, bareTrees, bareNode, bareDefinition, bareBody, bare_opTree, bare_fragTree, bare_schemaKids, bare_typeDefTree,
    bare_typeExtTree, bare_inputs, bareDirective]

theorem bare_defTrees : ∀ (i : Nat) (ds : List Definition), bareTrees (defTrees src i ds) = defTrees src i (ds.map bareDefinition)
  | _, [] => rfl
  | i, d :: ds => by rw [defTrees, bareTrees, bare_defTree, bare_defTrees (i + 1) ds]; rfl

theorem bare_docTree (d : Document) : bareTree (docTree src d) = docTree src (bareDocument d) := by
  have he : (bareDocument d).defs.isEmpty = d.defs.isEmpty := by simp [bareDocument]
  unfold docTree
  rw [bareTree, he, bareNode]
  by_cases h0 : d.defs.isEmpty = true
  · rw [if_pos h0, if_pos h0]; rfl
  · rw [if_neg h0, if_neg h0, bareTrees, bareTree, bareTrees, bare_defTrees]; rfl

end

theorem walk_bare (d : Document) : walkDocument (bareDocument d) = (walkDocument d).map bareEvent := by
  rw [walkDocument_eq, walkDocument_eq, ← bare_docTree, trace_bareTree]

/-! ### Maps -/

theorem bareMap_lookup {α : Type} (f : α → α) (m : GMap α) (n : Bytes) : (bareMap f m).lookup n = (m.lookup n).map f := by
  induction m with
  | nil => rfl
  | cons p m ih =>
    obtain ⟨k, v⟩ := p
    simp only [bareMap, List.map_cons, List.lookup_cons] at ih ⊢
    cases n == k with
    | true => rfl
    | false => exact ih

theorem bareMap_set {α : Type} (f : α → α) (m : GMap α) (n : Bytes) (v : α) : bareMap f (mapSet m n v) = mapSet (bareMap f m) n (f v) := by
  induction m with
  | nil => rfl
  | cons p m ih =>
    obtain ⟨k, w⟩ := p
    simp only [bareMap, mapSet, List.map_cons] at ih ⊢
    cases k == n with
    | true => rfl
    | false => simp only [Bool.false_eq_true, if_false, List.map_cons, ih]

/-! ### Contexts -/

/-- The outline of what `PrepareContextSDL` collects. -/
def bareSDL (s : SDLContext) : SDLContext :=
  { s with directives := bareMap bareDirective s.directives, types := bareMap bareType s.types, typeExts := bareMap (List.map bareType) s.typeExts,
           schemaDef := s.schemaDef.map bareSchemaDef, schemaExts := s.schemaExts.map bareSchemaDef }

/-- The outline of a context. -/
def bareCtx (c : Ctx) : Ctx :=
  { c with doc := bareDocument c.doc, schema := bareSchema c.schema, sdl := c.sdl.map bareSDL, fragments := bareMap bareFrag c.fragments }

theorem bareCtx_addErrors (c : Ctx) (es : List GErr) : bareCtx (c.addErrors es) = (bareCtx c).addErrors es := by
  rw [Ctx.addErrors_eq, Ctx.addErrors_eq]; rfl

theorem bare_iter (c : Ctx) : ∀ (fuel : Nat) (d : Option Nat) (p : List Bytes × List (Option Nat)),
    (bareCtx c).variableUsagesIter fuel d p = c.variableUsagesIter fuel d p
  | 0, _, _ => rfl
  | fuel + 1, d, p => by
    unfold Ctx.variableUsagesIter
    simp only [bare_iter c fuel]
    rfl

theorem bare_usages (c : Ctx) (d : Option Nat) : (bareCtx c).recursiveVariableUsages (bareCtx c).depthBound d = c.recursiveVariableUsages c.depthBound d := by
  have : (bareCtx c).depthBound = c.depthBound := by simp [Ctx.depthBound, bareCtx, bareDocument]
  unfold Ctx.recursiveVariableUsages
  rw [this, bare_iter]

/-- The argument definitions of an outline. -/
theorem bareInput_required (v : InputVal) : (bareInput v).required = v.required := by
  obtain ⟨x, n, t, ds, d⟩ := v
  cases d <;> rfl

/-- What the rules see of the definition of a directive. -/
def dirDigest (d : DirDef) : List (Bytes × Ty × Bool) × Nat := (d.args.map fun v => (v.name, v.type, v.required), d.locs)

theorem dirDigest_bare (d : DirDef) : dirDigest (bareDirective d) = dirDigest d := by
  simp only [dirDigest, bareDirective, List.map_map]
  congr 1
  refine List.map_congr_left fun v _ => ?_
  simp only [Function.comp, bareInput_required]
  rfl

theorem badArgs_digest {vs vs' : List InputVal} (h : vs.map (fun v => (v.name, v.type, v.required)) = vs'.map fun v => (v.name, v.type, v.required))
    (as : List Argument) (n : Bytes) :
    (badArgs vs (as.map bareArg)).map (fun a => unknownDirectiveArgError a.name n) = (badArgs vs' as).map fun a => unknownDirectiveArgError a.name n := by
  have hn : ∀ x : Bytes, (vs.any fun d => x == d.name) = vs'.any fun d => x == d.name := by
    intro x
    have := congrArg (fun l => l.any fun (q : Bytes × Ty × Bool) => x == q.1) h
    simpa [List.any_map, Function.comp_def] using this
  cases as with
  | nil => rfl
  | cons a as =>
    simp only [List.map_cons, badArgs, List.map_append, List.map_map, Function.comp_def]
    show List.map _ (if (vs.any fun d => a.name == d.name) = true then _ else _) ++ _ = _
    rw [hn]
    cases vs'.any fun d => a.name == d.name <;> rfl

theorem required_digest {vs vs' : List InputVal} (h : vs.map (fun v => (v.name, v.type, v.required)) = vs'.map fun v => (v.name, v.type, v.required))
    (as : List Argument) (n : Bytes) :
    (vs.filter fun v => v.required && !(as.map bareArg).any fun a => a.name == v.name).map (fun v => missingDirectiveArgError n v.name v.type.str) =
      (vs'.filter fun v => v.required && !as.any fun a => a.name == v.name).map fun v => missingDirectiveArgError n v.name v.type.str := by
  have key : ∀ l : List InputVal, (l.filter fun v => v.required && !as.any fun a => a.name == v.name).map (fun v => missingDirectiveArgError n v.name v.type.str) =
      ((l.map fun v => (v.name, v.type, v.required)).filter fun q => q.2.2 && !as.any fun a => a.name == q.1).map fun q => missingDirectiveArgError n q.1 q.2.1.str := by
    intro l
    rw [List.filter_map, List.map_map]
    rfl
  have ha : ∀ x : Bytes, ((as.map bareArg).any fun a => a.name == x) = as.any fun a => a.name == x := by
    intro x
    rw [List.any_map]
    rfl
  simp only [ha]
  rw [key, key, h]

theorem digest_eq {x y : Option DirDef} (h : x.map dirDigest = y.map dirDigest) :
    (x = none ∧ y = none) ∨ ∃ d d', x = some d ∧ y = some d' ∧ dirDigest d = dirDigest d' := by
  cases x <;> cases y <;> first | exact .inl ⟨rfl, rfl⟩ | cases h | skip
  exact .inr ⟨_, _, rfl, rfl, Option.some.inj h⟩

theorem digest_map (x : Option DirDef) : (x.map bareDirective).map dirDigest = x.map dirDigest := by
  cases x with
  | none => rfl
  | some d => exact congrArg some (dirDigest_bare d)

theorem bare_documentDirective (c : Ctx) (n : Bytes) : (bareCtx c).documentDirective n = (c.documentDirective n).map bareDirective := by
  unfold Ctx.documentDirective
  have : (bareCtx c).sdl = c.sdl.map bareSDL := rfl
  rw [this]
  cases c.sdl with
  | none => rfl
  | some s => exact bareMap_lookup _ _ _

theorem bare_documentType (c : Ctx) (n : Bytes) : (bareCtx c).documentType n = (c.documentType n).map bareType := by
  unfold Ctx.documentType
  have : (bareCtx c).sdl = c.sdl.map bareSDL := rfl
  rw [this]
  cases c.sdl with
  | none => rfl
  | some s => exact bareMap_lookup _ _ _

theorem bare_schemaDirective (c : Ctx) (n : Bytes) : (bareCtx c).schema.directives.lookup n = (c.schema.directives.lookup n).map bareDirective := bareMap_lookup _ _ _
theorem bare_schemaType (c : Ctx) (n : Bytes) : (bareCtx c).schema.types.lookup n = (c.schema.types.lookup n).map bareType := bareMap_lookup _ _ _

theorem bare_known (c : Ctx) (n : Bytes) : (knownDirectiveDefinition (bareCtx c) n).map dirDigest = (knownDirectiveDefinition c n).map dirDigest := by
  unfold knownDirectiveDefinition
  rw [bare_schemaDirective, bare_documentDirective]
  cases c.schema.directives.lookup n with
  | some d => exact digest_map (some d)
  | none =>
    cases c.documentDirective n with
    | some d => exact digest_map (some d)
    | none => rfl

theorem bare_argDef (c : Ctx) (n : Bytes) : (argDirectiveDefinition (bareCtx c) n).map dirDigest = (argDirectiveDefinition c n).map dirDigest := by
  unfold argDirectiveDefinition Ctx.directiveDefinition
  have : (bareCtx c).sdl = c.sdl.map bareSDL := rfl
  rw [this]
  cases c.sdl with
  | none => rfl
  | some s =>
    have h1 : (bareSDL s).isExtending = s.isExtending := rfl
    have h2 : (bareSDL s).directives.lookup n = (s.directives.lookup n).map bareDirective := bareMap_lookup _ _ _
    simp only [Option.map_some, h1, h2, bare_schemaDirective]
    cases s.isExtending <;> cases c.schema.directives.lookup n <;> cases s.directives.lookup n <;>
      first | rfl | exact digest_map (some _)

theorem bare_extType (c : Ctx) (n : Bytes) : (extTypeDefinition (bareCtx c) n).map (·.kind) = (extTypeDefinition c n).map (·.kind) := by
  unfold extTypeDefinition Ctx.typeDefinition
  have : (bareCtx c).sdl = c.sdl.map bareSDL := rfl
  rw [this]
  cases c.sdl with
  | none => rfl
  | some s =>
    have h1 : (bareSDL s).isExtending = s.isExtending := rfl
    have h2 : (bareSDL s).types.lookup n = (s.types.lookup n).map bareType := bareMap_lookup _ _ _
    simp only [Option.map_some, h1, h2, bare_schemaType]
    cases s.isExtending <;> cases c.schema.types.lookup n <;> cases s.types.lookup n <;> rfl

theorem map_names {α : Type} (f : α → α) (name : α → Bytes) (h : ∀ x, name (f x) = name x) (l : List α) : (l.map f).map name = l.map name := by
  rw [List.map_map]
  exact List.map_congr_left fun x _ => h x

theorem bareFlds_names : ∀ fs : List (Bytes × Value), (bareFlds fs).map (·.1) = fs.map (·.1)
  | [] => rfl
  | (n, v) :: fs => by rw [bareFlds, List.map_cons, List.map_cons, bareFlds_names fs]

theorem bare_defined (c : Ctx) : (bareCtx c).defined = c.defined := by
  funext k
  unfold Ctx.defined
  have : (bareCtx c).sdl = c.sdl.map bareSDL := rfl
  rw [this]
  cases c.sdl with
  | none => rfl
  | some s => cases k <;> rfl

theorem extRepeats_bare (s : Schema) : ∀ (os : List OpTypeDef) (f : OpKind → Bool), opTypeExtRepeats (bareSchema s) f os = opTypeExtRepeats s f os
  | [], _ => rfl
  | o :: os, f => by
    unfold opTypeExtRepeats
    rw [extRepeats_bare s os]
    have : (bareSchema s).rootType o.op = s.rootType o.op := by cases o.op <;> rfl
    rw [this]

/-- Each rule reports the same about the outline. -/
theorem errs_bare (c : Ctx) (e : Event) (r : Rule) : r.errs (bareCtx c) (bareEvent e) = r.errs c e := by
  cases r with
  | executableDefinitions =>
    rcases e with n | n <;> cases n <;> try rfl
    rename_i i d
    obtain ⟨l, b⟩ := d
    cases b <;> rfl
  | knownArgumentNamesOnDirectives =>
    rcases e with n | n <;> cases n <;> try rfl
    rename_i d
    show knownArgErrs (bareCtx c) (.enter (.directive (bareDir d))) = knownArgErrs c (.enter (.directive d))
    simp only [knownArgErrs]
    show (match argDirectiveDefinition (bareCtx c) d.name with | none => _ | some dd => _) = _
    rcases digest_eq (bare_argDef c d.name) with ⟨h1, h2⟩ | ⟨x, y, h1, h2, h3⟩
    · rw [h1, h2]
    · rw [h1, h2]
      exact badArgs_digest (congrArg Prod.fst h3) d.args d.name
  | knownDirectives =>
    rcases e with n | n <;> cases n <;> try rfl
    rename_i d
    show knownDirErrs (bareCtx c) (.enter (.directive (bareDir d))) = knownDirErrs c (.enter (.directive d))
    simp only [knownDirErrs]
    show (match knownDirectiveDefinition (bareCtx c) d.name with | none => _ | some dd => _) = _
    rcases digest_eq (bare_known c d.name) with ⟨h1, h2⟩ | ⟨x, y, h1, h2, h3⟩
    · rw [h1, h2]; rfl
    · rw [h1, h2]
      have : x.locs = y.locs := congrArg Prod.snd h3
      dsimp only
      rw [this]
      rfl
  | knownTypeNames =>
    rcases e with n | n <;> cases n <;> try rfl
    rename_i t
    show knownTypeErrs (bareCtx c) (.enter (.namedType t)) = knownTypeErrs c (.enter (.namedType t))
    simp only [knownTypeErrs, typeNameKnown, bare_schemaType, bare_documentType, Option.isSome_map]
    rfl
  | loneAnonymousOperation => rcases e with n | n <;> cases n <;> rfl
  | noUnusedVariables =>
    rcases e with n | n <;> cases n <;> try rfl
    rename_i i b
    cases b <;> try rfl
    rename_i o
    show unusedErrs (bareCtx c) (.leave (.executableDefinition i (.op (bareOp o)))) = unusedErrs c (.leave (.executableDefinition i (.op o)))
    have hu : usesOf (bareCtx c) i = usesOf c i := by unfold usesOf; rw [bare_usages]
    simp only [unusedErrs, hu]
    show List.map _ (List.filter _ (o.vars.map bareVar)) = _
    rw [List.filter_map, List.map_map]
    rfl
  | possibleNames => rcases e with n | n <;> cases n <;> rfl
  | possibleTypeExtensions =>
    rcases e with n | n <;> cases n <;> try rfl
    rename_i t
    show typeExtErrs (bareCtx c) (.enter (.typeExtension (bareType t))) = typeExtErrs c (.enter (.typeExtension t))
    simp only [typeExtErrs]
    show (match extTypeDefinition (bareCtx c) t.name with | some x => _ | none => _) = _
    have h := bare_extType c t.name
    cases h1 : extTypeDefinition (bareCtx c) t.name <;> cases h2 : extTypeDefinition c t.name <;> rw [h1, h2] at h
    · rfl
    · cases h
    · cases h
    · rename_i x y
      have : x.kind = y.kind := Option.some.inj h
      dsimp only
      rw [this]
      rfl
  | providedRequiredArgumentsOnDirectives =>
    rcases e with n | n <;> cases n <;> try rfl
    rename_i d
    show requiredErrs (bareCtx c) (.enter (.directive (bareDir d))) = requiredErrs c (.enter (.directive d))
    simp only [requiredErrs]
    show (match knownDirectiveDefinition (bareCtx c) d.name with | none => _ | some dd => _) = _
    rcases digest_eq (bare_known c d.name) with ⟨h1, h2⟩ | ⟨x, y, h1, h2, h3⟩
    · rw [h1, h2]
    · rw [h1, h2]
      exact required_digest (congrArg Prod.fst h3) d.args d.name
  | uniqueArgumentNames =>
    rcases e with n | n <;> cases n <;> try rfl
    · rename_i d
      exact congrArg (fun l => (repeats [] l).map duplicateArgError) (map_names bareArg (·.name) (fun _ => rfl) d.args)
    · rename_i d
      exact congrArg (fun l => (repeats [] l).map duplicateArgError) (map_names bareInput (·.name) (fun _ => rfl) d.args)
    · rename_i d
      exact congrArg (fun l => (repeats [] l).map duplicateArgError) (map_names bareInput (·.name) (fun _ => rfl) d.args)
    · rename_i s
      cases s <;> try rfl
      rename_i al n as ds ss
      exact congrArg (fun l => (repeats [] l).map duplicateArgError) (map_names bareArg (·.name) (fun _ => rfl) as)
  | uniqueDirectivesPerLocation =>
    rcases e with n | n <;> cases n <;> try rfl
    rename_i ds
    exact congrArg (fun l => (repeats [] l).map duplicateDirectiveError) (map_names bareDir (·.name) (fun _ => rfl) ds)
  | uniqueInputFieldNames =>
    rcases e with n | n <;> cases n <;> try rfl
    rename_i v
    cases v <;> try rfl
    rename_i fs
    exact congrArg (fun l => (repeats [] l).map duplicateInputFieldError) (bareFlds_names fs)
  | uniqueOperationNames => rcases e with n | n <;> cases n <;> rfl
  | uniqueOperationTypes =>
    rcases e with n | n <;> cases n <;> try rfl
    rename_i d
    show opTypeExtRepeats (bareSchema c.schema) (bareCtx c).defined d.ops = _
    rw [extRepeats_bare, bare_defined]
    rfl

theorem flagAfter_bare (c : Ctx) (e : Event) : (bareCtx c).flagAfter (bareEvent e) = bareCtx (c.flagAfter e) := by
  have hd : ∀ (os : List OpTypeDef) (s : SDLContext), (bareSDL s).defineAll os = bareSDL (s.defineAll os) := by
    intro os
    induction os with
    | nil => intro s; rfl
    | cons o os ih =>
      intro s
      show ((bareSDL s).define o.op).defineAll os = bareSDL ((s.define o.op).defineAll os)
      rw [← ih]
      cases o.op <;> rfl
  rcases e with n | n <;> cases n <;> try rfl
  all_goals
    rename_i d
    simp only [bareEvent, bareNode, Ctx.flagAfter, bareCtx]
    congr 1
    cases c.sdl with
    | none => rfl
    | some s => exact congrArg some (hd d.ops s)

theorem after_bare (c : Ctx) (e : Event) (r : Rule) : r.after (bareCtx c) (bareEvent e) = bareCtx (r.after c e) := by
  unfold Rule.after
  rw [errs_bare]
  cases r <;> simp only [flagAfter_bare, bareCtx_addErrors]

theorem afterAll_bare (e : Event) : ∀ (rs : List Rule) (c : Ctx), afterAll rs (bareCtx c) (bareEvent e) = bareCtx (afterAll rs c e)
  | [], _ => rfl
  | r :: rs, c => by
    show afterAll rs (r.after (bareCtx c) (bareEvent e)) (bareEvent e) = bareCtx (afterAll rs (r.after c e) e)
    rw [after_bare, afterAll_bare e rs]

theorem fold_bare (rs : List Rule) : ∀ (es : List Event) (c : Ctx), (es.map bareEvent).foldl (afterAll rs) (bareCtx c) = bareCtx (es.foldl (afterAll rs) c)
  | [], _ => rfl
  | e :: es, c => by
    rw [List.map_cons, List.foldl_cons, List.foldl_cons, afterAll_bare, fold_bare rs es]

theorem ready_bare {c : Ctx} {r : Rule} (h : r.ready c) : r.ready (bareCtx c) := by
  have hs : (bareCtx c).sdl.isSome = c.sdl.isSome := Option.isSome_map
  cases r <;> first | trivial | exact hs.trans h | skip
  intro d
  rw [bare_usages]
  exact h d

theorem on_fold (rs : List Rule) : ∀ (es : List Event) (c : Ctx), (∀ r ∈ rs, r.ready c) →
    es.foldl (fun o e => Walker.on (rulesWalker rs) e o) (.ret c) = .ret (es.foldl (afterAll rs) c)
  | [], _, _ => rfl
  | e :: es, c, h => by
    rw [List.foldl_cons, List.foldl_cons, on_rules rs c e h]
    exact on_fold rs es _ fun r hr => (Rule.ready_congr (afterAll_base rs c e)).2 (h r hr)

/-- A walk over the outline with any rules that can run: the outline of the walk. -/
theorem walk_rules_bare (rs : List Rule) (c : Ctx) (doc : Document) (h : ∀ r ∈ rs, r.ready c) :
    ∃ c', Walker.walk (rulesWalker rs) (.ret c) doc = .ret c' ∧ Walker.walk (rulesWalker rs) (.ret (bareCtx c)) (bareDocument doc) = .ret (bareCtx c') := by
  unfold Walker.walk
  refine ⟨_, on_fold rs _ c h, (on_fold rs _ _ fun r hr => ready_bare (h r hr)).trans ?_⟩
  rw [walk_bare, fold_bare]

/-! ### The contexts at the start -/

theorem decorate_bare (c : Ctx) (n : ANode) : decorate (bareCtx c) (bareNode n) = bareCtx (decorate c n) := by
  cases n <;> try rfl
  case fragmentDefinition f =>
    show ({ bareCtx c with fragments := mapSet (bareMap bareFrag c.fragments) f.name (bareFrag f) } : Ctx) = bareCtx { c with fragments := mapSet c.fragments f.name f }
    rw [← bareMap_set]
    rfl
  case fragmentSpreadSelection s =>
    cases s <;> try rfl
    rename_i name ds
    show (bareDocument c.doc).defs.zipIdx.foldl (refStep name) (bareCtx c) = bareCtx (c.doc.defs.zipIdx.foldl (refStep name) c)
    have key : ∀ (l : List Definition) (k : Nat) (c : Ctx), ((l.map bareDefinition).zipIdx k).foldl (refStep name) (bareCtx c) = bareCtx ((l.zipIdx k).foldl (refStep name) c) := by
      intro l
      induction l with
      | nil => intro k c; rfl
      | cons d l ih =>
        intro k c
        simp only [List.map_cons, List.zipIdx_cons, List.foldl_cons]
        rw [← ih]
        congr 1
        obtain ⟨loc, b⟩ := d
        cases b <;> try rfl
        rename_i f
        show (if f.name == name then (if ((bareCtx c).referencedFragments c.cur).contains k then bareCtx c else _) else bareCtx c) =
          bareCtx (if f.name == name then (if (c.referencedFragments c.cur).contains k then c else _) else c)
        cases f.name == name with
        | false => rfl
        | true =>
          show (if (c.referencedFragments c.cur).contains k then bareCtx c else _) = bareCtx (if (c.referencedFragments c.cur).contains k then c else _)
          cases (c.referencedFragments c.cur).contains k <;> rfl
    exact key _ 0 c
  case variableValue v =>
    cases v <;> try rfl
    rename_i name
    show (if ((c.variableUsages c.cur).contains name) then bareCtx c else _) = bareCtx (if (c.variableUsages c.cur).contains name then c else _)
    cases (c.variableUsages c.cur).contains name <;> rfl

theorem queryCtx_bare (doc : Document) (schema : Option Schema) : queryCtx (bareDocument doc) (schema.map bareSchema) = bareCtx (queryCtx doc schema) := by
  have h1 := newContext_eq (bareDocument doc) (schema.map bareSchema)
  have h2 := newContext_eq doc schema
  rw [newContext_ret] at h1 h2
  have e1 := Out.ret.inj h1
  have e2 := Out.ret.inj h2
  rw [e1, e2, ← bare_docTree, nodes_bareTree]
  have h0 : emptyCtx (bareDocument doc) (schema.map bareSchema) = bareCtx (emptyCtx doc schema) := by cases schema <;> rfl
  rw [h0]
  generalize (docTree false doc).nodes = ns
  generalize emptyCtx doc schema = c
  induction ns generalizing c with
  | nil => rfl
  | cons n ns ih => rw [List.map_cons, List.foldl_cons, List.foldl_cons, decorate_bare, ih]

theorem prepareStep_bare (c : Ctx) (s : SDLContext) (d : Definition × Nat) :
    prepareStep (bareCtx c) (bareSDL s) (bareDefinition d.1, d.2) = (bareCtx (prepareStep c s d).1, bareSDL (prepareStep c s d).2) := by
  obtain ⟨⟨l, b⟩, i⟩ := d
  cases b with
  | op o => rfl
  | frag f =>
    show (({ bareCtx c with fragments := mapSet (bareMap bareFrag c.fragments) f.name (bareFrag f) } : Ctx), bareSDL s) = _
    rw [← bareMap_set]
    rfl
  | schemaExt e =>
    show (bareCtx c, { bareSDL s with schemaExts := s.schemaExts.map bareSchemaDef ++ [bareSchemaDef e] }) = (bareCtx c, bareSDL { s with schemaExts := s.schemaExts ++ [e] })
    simp [bareSDL]
  | typeExt e =>
    show (bareCtx c, { bareSDL s with typeExts := mapSet (bareMap (List.map bareType) s.typeExts) e.name (((bareMap (List.map bareType) s.typeExts).lookup e.name).getD [] ++ [bareType e]) }) =
      (bareCtx c, bareSDL { s with typeExts := mapSet s.typeExts e.name ((s.typeExts.lookup e.name).getD [] ++ [e]) })
    have : ((bareMap (List.map bareType) s.typeExts).lookup e.name).getD [] ++ [bareType e] = ((s.typeExts.lookup e.name).getD [] ++ [e]).map bareType := by
      rw [bareMap_lookup]
      cases s.typeExts.lookup e.name <;> simp
    rw [this, ← bareMap_set]
    rfl
  | directive dd =>
    have h1 : ((bareCtx c).schema.directives.lookup dd.name).isSome = (c.schema.directives.lookup dd.name).isSome := by rw [bare_schemaDirective, Option.isSome_map]
    have h2 : ((bareSDL s).directives.lookup dd.name).isSome = (s.directives.lookup dd.name).isSome := by
      show ((bareMap bareDirective s.directives).lookup dd.name).isSome = _
      rw [bareMap_lookup, Option.isSome_map]
    show (if ((bareCtx c).schema.directives.lookup dd.name).isSome then _ else if ((bareSDL s).directives.lookup dd.name).isSome then _ else
      (bareCtx c, ({ bareSDL s with directives := mapSet (bareMap bareDirective s.directives) dd.name (bareDirective dd) } : SDLContext))) = _
    rw [h1, h2, ← bareMap_set]
    show _ = (bareCtx (if (c.schema.directives.lookup dd.name).isSome then _ else if (s.directives.lookup dd.name).isSome then _ else _ : Ctx × SDLContext).1,
      bareSDL (if (c.schema.directives.lookup dd.name).isSome then _ else if (s.directives.lookup dd.name).isSome then _ else _ : Ctx × SDLContext).2)
    cases (c.schema.directives.lookup dd.name).isSome <;> cases (s.directives.lookup dd.name).isSome <;> rfl
  | schema sd =>
    have h2 : (bareSDL s).schemaDef.isSome = s.schemaDef.isSome := Option.isSome_map
    have h3 : (bareSDL s).isExtending = s.isExtending := rfl
    rcases hx : s.isExtending with _ | _ <;> rcases hy : s.schemaDef.isSome with _ | _ <;>
      simp only [prepareStep, bareDefinition, bareBody, h2, h3, hx, hy, if_true, Bool.false_eq_true, if_false] <;> rfl
  | type t =>
    have h1 : ((bareCtx c).schema.types.lookup t.name).isSome = (c.schema.types.lookup t.name).isSome := by rw [bare_schemaType, Option.isSome_map]
    have h2 : ((bareSDL s).types.lookup t.name).isSome = (s.types.lookup t.name).isSome := by
      show ((bareMap bareType s.types).lookup t.name).isSome = _
      rw [bareMap_lookup, Option.isSome_map]
    show (if ((bareCtx c).schema.types.lookup t.name).isSome then _ else if ((bareSDL s).types.lookup t.name).isSome then _ else
      (bareCtx c, ({ bareSDL s with types := mapSet (bareMap bareType s.types) t.name (bareType t) } : SDLContext))) = _
    rw [h1, h2, ← bareMap_set]
    show _ = (bareCtx (if (c.schema.types.lookup t.name).isSome then _ else if (s.types.lookup t.name).isSome then _ else _ : Ctx × SDLContext).1,
      bareSDL (if (c.schema.types.lookup t.name).isSome then _ else if (s.types.lookup t.name).isSome then _ else _ : Ctx × SDLContext).2)
    cases (c.schema.types.lookup t.name).isSome <;> cases (s.types.lookup t.name).isSome <;> rfl

theorem nameAnonymous_bare (d : Definition) : nameAnonymous (bareDefinition d) = bareDefinition (nameAnonymous d) := by
  obtain ⟨l, b⟩ := d
  cases b <;> try rfl
  rename_i o
  show (if o.name = [] then _ else _) = bareDefinition (if o.name = [] then _ else _)
  split <;> rfl

theorem sdlCtx_bare (doc : Document) (schema : Option Schema) : newSDLContext (bareDocument doc) (schema.map bareSchema) = bareCtx (newSDLContext doc schema) := by
  have hl : (bareDocument doc).defs.map nameAnonymous = (doc.defs.map nameAnonymous).map bareDefinition := by
    simp only [bareDocument, List.map_map]
    exact List.map_congr_left fun d _ => nameAnonymous_bare d
  unfold newSDLContext
  simp only [hl]
  have key : ∀ (l : List Definition) (k : Nat) (p : Ctx × SDLContext),
      ((l.map bareDefinition).zipIdx k).foldl (fun (p : Ctx × SDLContext) d => prepareStep p.1 p.2 d) (bareCtx p.1, bareSDL p.2) =
        (bareCtx ((l.zipIdx k).foldl (fun (p : Ctx × SDLContext) d => prepareStep p.1 p.2 d) p).1,
         bareSDL ((l.zipIdx k).foldl (fun (p : Ctx × SDLContext) d => prepareStep p.1 p.2 d) p).2) := by
    intro l
    induction l with
    | nil => intro k p; rfl
    | cons d l ih =>
      intro k p
      simp only [List.map_cons, List.zipIdx_cons, List.foldl_cons]
      rw [prepareStep_bare p.1 p.2 (d, k)]
      exact ih (k + 1) _
  have := key (doc.defs.map nameAnonymous) 0 (({ doc := { doc with defs := doc.defs.map nameAnonymous }, schema := schema.getD {} } : Ctx), ({ isExtending := schema.isSome } : SDLContext))
  have w := congrArg (fun p : Ctx × SDLContext => ({ p.1 with sdl := some p.2 } : Ctx)) this
  cases schema <;> exact w

/-! ### Validation -/

/-- `Validate` of the outline. -/
theorem validate_bare (doc : Document) (schema : Option Schema) (rs : List Rule) (h : ∀ r ∈ rs, r.sdlOnly = false) :
    ∃ c, validate doc schema (rulesWalker rs) = .ret c ∧ validate (bareDocument doc) (schema.map bareSchema) (rulesWalker rs) = .ret (bareCtx c) := by
  unfold validate
  rw [newContext_ret, newContext_ret, queryCtx_bare]
  exact walk_rules_bare rs _ doc fun r hr => queryCtx_ready doc schema (h r hr)

/-- `ValidateSDL` of the outline. -/
theorem validateSDL_bare (doc : Document) (schema : Option Schema) (rs : List Rule) :
    ∃ c, validateSDL doc schema (rulesWalker rs) = .ret c ∧ validateSDL (bareDocument doc) (schema.map bareSchema) (rulesWalker rs) = .ret (bareCtx c) := by
  unfold validateSDL
  rw [sdlCtx_bare]
  exact walk_rules_bare rs _ (newSDLContext doc schema).doc fun r _ => sdlCtx_ready doc schema r

end GQL
