/-
The nodes of a relabelled document are the relabelled nodes.
-/
import Verif.Spec.Relabel
import Verif.Proofs.Outline

namespace GQL
open Spec

section
variable (r : Relabelling)

/-- The definition with the new names. -/
def Spec.Relabelling.definition (d : Definition) : Definition := ⟨d.loc, r.body d.body⟩

/-- The document with the new names. -/
def Spec.Relabelling.document (d : Document) : Document := { d with defs := d.defs.map r.definition }

/-- The outline of a node. -/
def rlNode : ANode → ANode
  | .argument a => .argument (r.arg a)
  | .arguments as => .arguments (as.map r.arg)
  | .booleanValue v => .booleanValue (r.value v)
  | .definition i d => .definition i (r.definition d)
  | .definitions ds => .definitions (ds.map r.definition)
  | .directive d => .directive (r.dir d)
  | .directiveDefinition d => .directiveDefinition (r.dirDef d)
  | .directives ds => .directives (ds.map r.dir)
  | .document d => .document (r.document d)
  | .enumTypeDefinition t => .enumTypeDefinition (r.typeDef t)
  | .enumTypeExtension t => .enumTypeExtension (r.typeDef t)
  | .enumValue v => .enumValue (r.value v)
  | .enumValueDefinition v => .enumValueDefinition (r.enumVal v)
  | .enumValueDefinitions vs => .enumValueDefinitions (vs.map r.enumVal)
  | .executableDefinition i b => .executableDefinition i (r.body b)
  | .fieldDefinition f => .fieldDefinition (r.fieldDef f)
  | .fieldDefinitions fs => .fieldDefinitions (fs.map r.fieldDef)
  | .fieldSelection s => .fieldSelection (r.sel s)
  | .floatValue v => .floatValue (r.value v)
  | .fragmentDefinition f => .fragmentDefinition (r.frag f)
  | .fragmentSpreadSelection s => .fragmentSpreadSelection (r.sel s)
  | .inlineFragmentSelection s => .inlineFragmentSelection (r.sel s)
  | .inputObjectTypeDefinition t => .inputObjectTypeDefinition (r.typeDef t)
  | .inputObjectTypeExtension t => .inputObjectTypeExtension (r.typeDef t)
  | .inputValueDefinition v => .inputValueDefinition (r.inputVal v)
  | .inputValueDefinitions vs => .inputValueDefinitions (vs.map r.inputVal)
  | .intValue v => .intValue (r.value v)
  | .interfaceTypeDefinition t => .interfaceTypeDefinition (r.typeDef t)
  | .interfaceTypeExtension t => .interfaceTypeExtension (r.typeDef t)
  | .listType t => .listType (r.ty t)
  | .listValue v => .listValue (r.value v)
  | .mutationOperationDefinition o => .mutationOperationDefinition (r.op o)
  | .namedType t => .namedType (r.ty t)
  | .nullValue v => .nullValue (r.value v)
  | .objectField n v => .objectField (r.input n) (r.value v)
  | .objectTypeDefinition t => .objectTypeDefinition (r.typeDef t)
  | .objectTypeExtension t => .objectTypeExtension (r.typeDef t)
  | .objectValue v => .objectValue (r.value v)
  | .operationDefinition i o => .operationDefinition i (r.op o)
  | .operationTypeDefinition o => .operationTypeDefinition (r.opType o)
  | .operationTypeDefinitions os => .operationTypeDefinitions (os.map r.opType)
  | .queryOperationDefinition o => .queryOperationDefinition (r.op o)
  | .scalarTypeDefinition t => .scalarTypeDefinition (r.typeDef t)
  | .scalarTypeExtension t => .scalarTypeExtension (r.typeDef t)
  | .schemaDefinition s => .schemaDefinition (r.schemaDef s)
  | .schemaExtension s => .schemaExtension (r.schemaDef s)
  | .selection s => .selection (r.sel s)
  | .selections ss => .selections (r.sels ss)
  | .stringValue v => .stringValue (r.value v)
  | .subscriptionOperationDefinition o => .subscriptionOperationDefinition (r.op o)
  | .type t => .type (r.ty t)
  | .typeCondition t => .typeCondition (r.ty t)
  | .typeDefinition t => .typeDefinition (r.typeDef t)
  | .typeExtension t => .typeExtension (r.typeDef t)
  | .typeSystemDefinition b => .typeSystemDefinition (r.body b)
  | .typeSystemExtension b => .typeSystemExtension (r.body b)
  | .types ts => .types (ts.map r.ty)
  | .unionTypeDefinition t => .unionTypeDefinition (r.typeDef t)
  | .unionTypeExtension t => .unionTypeExtension (r.typeDef t)
  | .value v => .value (r.value v)
  | .variableDefinition v => .variableDefinition (r.var v)
  | .variableDefinitions vs => .variableDefinitions (vs.map r.var)
  | .variableValue v => .variableValue (r.value v)

mutual
/-- The tree with the outlines of its nodes. -/
def rlTree : Tree → Tree
  | .node n ks => .node (rlNode r n) (rlTrees ks)
def rlTrees : List Tree → List Tree
  | [] => []
  | t :: ts => rlTree t :: rlTrees ts
end

mutual
theorem nodes_rlTree : ∀ t : Tree, (rlTree r t).nodes = t.nodes.map (rlNode r)
  | .node n ks => by simp [rlTree, Tree.nodes, nodes_rlTrees ks]
theorem nodes_rlTrees : ∀ ts : List Tree, nodesAll (rlTrees r ts) = (nodesAll ts).map (rlNode r)
  | [] => rfl
  | t :: ts => by rw [rlTrees, nodesAll, nodesAll, nodes_rlTree t, nodes_rlTrees ts, List.map_append]
end

theorem rlTrees_append (a b : List Tree) : rlTrees r (a ++ b) = rlTrees r a ++ rlTrees r b := by
  induction a with
  | nil => rfl
  | cons t a ih => simp [rlTrees, ih]

theorem rlTrees_map {α : Type} (f : α → Tree) (l : List α) : rlTrees r (l.map f) = l.map fun x => rlTree r (f x) := by
  induction l with
  | nil => rfl
  | cons t a ih => simp [rlTrees, ih]

theorem rl_group {α : Type} {mk : List α → ANode} {item : α → Tree} (g : α → α) (h1 : ∀ l, rlNode r (mk l) = mk (l.map g))
    (h2 : ∀ x, rlTree r (item x) = item (g x)) (l : List α) : rlTrees r (group mk item l) = group mk item (l.map g) := by
  unfold group
  cases l with
  | nil => rfl
  | cons a l => simp [rlTrees, rlTree, (rlTrees_map r), h1, h2]

theorem rl_tyTree (t : Ty) : rlTree r (tyTree t) = tyTree (r.ty t) := by
  induction t with
  | named n b => rfl
  | list t b ih => simp [tyTree, rlTree, rlTrees, ih, rlNode, Relabelling.ty]
  | listNil b => rfl

theorem rl_condTree (t : Ty) : rlTree r (condTree t) = condTree (r.ty t) := by
  simp [condTree, rlTree, rlTrees, (rl_tyTree r), rlNode]

mutual
theorem rl_valueTree : ∀ v : Value, rlTree r (valueTree v) = valueTree (r.value v)
  | .var n => by simp [valueTree, Relabelling.value, rlTree, rlTrees, rlNode]
  | .int i => by simp [valueTree, Relabelling.value, rlTree, rlTrees, rlNode]
  | .float f => by simp [valueTree, Relabelling.value, rlTree, rlTrees, rlNode]
  | .str s => by simp [valueTree, Relabelling.value, rlTree, rlTrees, rlNode]
  | .bool b => by simp [valueTree, Relabelling.value, rlTree, rlTrees, rlNode]
  | .null => by simp [valueTree, Relabelling.value, rlTree, rlTrees, rlNode]
  | .enum n => by simp [valueTree, Relabelling.value, rlTree, rlTrees, rlNode]
  | .list vs => by simp [valueTree, Relabelling.value, rlTree, rlTrees, rlNode, rl_valueTrees vs]
  | .obj fs => by simp [valueTree, Relabelling.value, rlTree, rlTrees, rlNode, rl_fieldTrees fs]
theorem rl_valueTrees : ∀ vs : List Value, rlTrees r (valueTrees vs) = valueTrees (r.values vs)
  | [] => rfl
  | v :: vs => by simp [valueTrees, Relabelling.values, rlTrees, rl_valueTree v, rl_valueTrees vs]
theorem rl_fieldTrees : ∀ fs : List (Bytes × Value), rlTrees r (fieldTrees fs) = fieldTrees (r.pairs fs)
  | [] => rfl
  | (n, v) :: fs => by simp [fieldTrees, Relabelling.pairs, rlTrees, rlTree, rlNode, rl_valueTree v, rl_fieldTrees fs]
end

theorem rl_argTree (a : Argument) : rlTree r (argTree a) = argTree (r.arg a) := by
  simp [argTree, rlTree, rlTrees, (rl_valueTree r), rlNode, Relabelling.arg]

theorem rl_dirTree (d : Directive) : rlTree r (dirTree d) = dirTree (r.dir d) := by
  simp [dirTree, rlTree, rlNode, rl_group r (mk := .arguments) r.arg (fun _ => rfl) (rl_argTree r), Relabelling.dir]

theorem rl_dirs (ds : List Directive) : rlTrees r (group .directives dirTree ds) = group .directives dirTree (ds.map r.dir) :=
  rl_group r r.dir (fun _ => rfl) (rl_dirTree r) ds

theorem rl_sels_isEmpty (ss : List Selection) : (r.sels ss).isEmpty = ss.isEmpty := by cases ss <;> rfl

mutual
theorem rl_selTree : ∀ s : Selection, rlTree r (selTree s) = selTree (r.sel s)
  | .field al n as ds ss => by
    have := rl_selTrees ss
    simp only [selTree, Relabelling.sel, rlTree, rlTrees, rlNode, (rlTrees_append r), rl_group r (mk := .arguments) r.arg (fun _ => rfl) (rl_argTree r),
      (rl_dirs r), (rl_sels_isEmpty r)]
    by_cases h : ss.isEmpty = true
    · simp [h, rlTrees]
    · simp [h, rlTrees, rlTree, rlNode, this]
  | .spread n ds => by
    simp only [selTree, Relabelling.sel, rlTree, rlTrees, rlNode, (rl_dirs r)]
  | .inline c ds ss => by
    have := rl_selTrees ss
    have hc : rlTrees r (c.toList.map condTree) = (c.map r.ty).toList.map condTree := by
      cases c <;> simp [rlTrees, (rl_condTree r)]
    simp only [selTree, Relabelling.sel, rlTree, rlTrees, rlNode, (rlTrees_append r), hc, (rl_dirs r), (rl_sels_isEmpty r)]
    by_cases h : ss.isEmpty = true
    · simp [h, rlTrees]
    · simp [h, rlTrees, rlTree, rlNode, this]
theorem rl_selTrees : ∀ ss : List Selection, rlTrees r (selTrees ss) = selTrees (r.sels ss)
  | [] => rfl
  | s :: ss => by simp [selTrees, Relabelling.sels, rlTrees, rl_selTree s, rl_selTrees ss]
end

theorem rl_selSet (ss : List Selection) : rlTrees r (selSet ss) = selSet (r.sels ss) := by
  unfold selSet
  rw [(rl_sels_isEmpty r)]
  by_cases h : ss.isEmpty = true
  · simp [h, rlTrees]
  · simp [h, rlTrees, rlTree, rlNode, (rl_selTrees r)]

theorem rl_varDefTree (v : VarDef) : rlTree r (varDefTree v) = varDefTree (r.var v) := by
  obtain ⟨n, t, d⟩ := v
  cases d <;> simp [varDefTree, rlTree, rlTrees, rlNode, (rl_tyTree r), (rl_valueTree r), Relabelling.var]

theorem rl_opTree (i : Nat) (o : OpDef) : rlTree r (opTree i o) = opTree i (r.op o) := by
  obtain ⟨k, n, vs, ds, ss⟩ := o
  cases k <;> simp [opTree, rlTree, rlTrees, rlNode, (rlTrees_append r), rl_group r (mk := .variableDefinitions) r.var (fun _ => rfl) (rl_varDefTree r),
    (rl_dirs r), (rl_selSet r), Relabelling.op]

theorem rl_fragTree (f : FragDef) : rlTree r (fragTree f) = fragTree (r.frag f) := by
  simp [fragTree, rlTree, rlTrees, rlNode, (rlTrees_append r), (rl_condTree r), (rl_dirs r), (rl_selSet r), Relabelling.frag]

section
variable (src : Bool)

theorem rl_inputTree (v : InputVal) : rlTree r (inputValueTree src v) = inputValueTree src (r.inputVal v) := by
  obtain ⟨x, n, t, ds, d⟩ := v
  cases d <;> cases src <;> simp [inputValueTree, rlTree, rlTrees, (rlTrees_append r), rlNode, (rl_tyTree r), (rl_valueTree r), Relabelling.inputVal, (rl_dirs r)]

theorem rl_inputs (vs : List InputVal) : rlTrees r (group .inputValueDefinitions (inputValueTree src) vs) =
    group .inputValueDefinitions (inputValueTree src) (vs.map r.inputVal) := rl_group r r.inputVal (fun _ => rfl) (rl_inputTree r src) vs

theorem rl_fieldTree (f : FieldDef) : rlTree r (fieldDefTree src f) = fieldDefTree src (r.fieldDef f) := by
  simp [fieldDefTree, rlTree, rlTrees, (rlTrees_append r), rlNode, (rl_tyTree r), (rl_inputs r), (rl_dirs r), Relabelling.fieldDef]

theorem rl_enumTree (v : EnumVal) : rlTree r (enumValTree v) = enumValTree (r.enumVal v) := by
  simp [enumValTree, rlTree, rlNode, (rl_dirs r), Relabelling.enumVal]

theorem rl_types (ts : List Ty) : rlTrees r (group .types tyTree ts) = group .types tyTree (ts.map r.ty) := rl_group r r.ty (fun _ => rfl) (rl_tyTree r) ts

theorem rl_typeMembers (t : TypeDef) : rlTrees r (typeMembers src t) = typeMembers src (r.typeDef t) := by
  simp only [typeMembers, (rlTrees_append r), (rl_types r), (rl_inputs r), rl_group r (mk := .fieldDefinitions) r.fieldDef (fun _ => rfl) (rl_fieldTree r src),
    rl_group r (mk := .enumValueDefinitions) r.enumVal (fun _ => rfl) (rl_enumTree r)]
  rfl

theorem rl_typeDefTree (t : TypeDef) : rlTree r (typeDefTree src t) = typeDefTree src (r.typeDef t) := by
  have hk : (r.typeDef t).kind = t.kind := rfl
  have h1 : (r.typeDef t).ifaces = t.ifaces.map r.ty := rfl
  have h2 : (r.typeDef t).dirs = t.dirs.map r.dir := rfl
  unfold typeDefTree
  rw [hk, h1, h2]
  cases t.kind <;> simp only [rlTree, rlTrees, (rlTrees_append r), rlNode, (rl_types r), (rl_dirs r), (rl_typeMembers r)]

theorem rl_typeExtTree (t : TypeDef) : rlTree r (typeExtTree src t) = typeExtTree src (r.typeDef t) := by
  have hk : (r.typeDef t).kind = t.kind := rfl
  have h1 : (r.typeDef t).ifaces = t.ifaces.map r.ty := rfl
  have h2 : (r.typeDef t).dirs = t.dirs.map r.dir := rfl
  unfold typeExtTree
  rw [hk, h1, h2]
  cases t.kind <;> cases src <;> simp [rlTree, rlTrees, (rlTrees_append r), rlNode, (rl_types r), (rl_dirs r), (rl_typeMembers r)]

theorem rl_schemaKids (s : SchemaDef) : rlTrees r (schemaKids s) = schemaKids (r.schemaDef s) := by
  have : ∀ o : OpTypeDef, rlTree r (opTypeTree o) = opTypeTree (r.opType o) := fun o => by simp [opTypeTree, rlTree, rlTrees, rlNode, (rl_tyTree r), Relabelling.opType]
  simp [schemaKids, (rlTrees_append r), (rl_dirs r), rl_group r (mk := .operationTypeDefinitions) r.opType (fun _ => rfl) this, Relabelling.schemaDef]

theorem rl_defTree (i : Nat) (d : Definition) : rlTree r (defTree src i d) = defTree src i (r.definition d) := by
  obtain ⟨l, b⟩ := d
  cases b <;> simp [defTree, rlTree, rlTrees, rlNode, Relabelling.definition, Relabelling.body, (rl_opTree r), (rl_fragTree r), (rl_schemaKids r), (rl_typeDefTree r),
    (rl_typeExtTree r), (rl_inputs r), Relabelling.dirDef]

theorem rl_defTrees : ∀ (i : Nat) (ds : List Definition), rlTrees r (defTrees src i ds) = defTrees src i (ds.map r.definition)
  | _, [] => rfl
  | i, d :: ds => by rw [defTrees, rlTrees, (rl_defTree r), rl_defTrees (i + 1) ds]; rfl

theorem rl_docTree (d : Document) : rlTree r (docTree src d) = docTree src (r.document d) := by
  have he : (r.document d).defs.isEmpty = d.defs.isEmpty := by simp [Relabelling.document]
  unfold docTree
  rw [rlTree, he, rlNode]
  by_cases h0 : d.defs.isEmpty = true
  · rw [if_pos h0, if_pos h0]; rfl
  · rw [if_neg h0, if_neg h0, rlTrees, rlTree, rlTrees, (rl_defTrees r)]; rfl

end

end

end GQL
