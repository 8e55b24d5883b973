/-
The trace of the walker is the bracket sequence of the tree of the document.
-/
import Verif.Spec.Tree

namespace GQL
open Spec (Tree nodesAll traceAll group)

theorem Spec.traceAll_append : ∀ a b, traceAll (a ++ b) = traceAll a ++ traceAll b
  | [], _ => rfl
  | t :: a, b => by simp [traceAll, Spec.traceAll_append a b]

theorem Spec.nodesAll_append : ∀ a b, nodesAll (a ++ b) = nodesAll a ++ nodesAll b
  | [], _ => rfl
  | t :: a, b => by simp [nodesAll, Spec.nodesAll_append a b]

theorem Spec.traceAll_map {α : Type} (f : α → Tree) : ∀ l : List α, traceAll (l.map f) = l.flatMap fun x => (f x).trace
  | [] => rfl
  | a :: l => by simp [traceAll, Spec.traceAll_map f l]

theorem Spec.traceAll_one (t : Tree) : traceAll [t] = t.trace := by simp [traceAll]

theorem walk_group {α : Type} {mk : List α → ANode} {item : α → Tree} {walk : α → List Event} (l : List α)
    (h : ∀ x, walk x = (item x).trace) :
    unlessNil (fun l => around (mk l) (l.flatMap walk)) l = traceAll (group mk item l) := by
  have h' : walk = fun x => (item x).trace := funext h
  subst h'
  rcases l with _ | ⟨a, l⟩
  · rfl
  · simp only [unlessNil, group, List.isEmpty_cons, Bool.false_eq_true, ↓reduceIte, Spec.traceAll_one, Tree.trace, Spec.traceAll_map, around]

theorem walkType_eq : ∀ t, walkType t = (Spec.tyTree t).trace
  | .named n b => rfl
  | .list t b => by simp [walkType, Spec.tyTree, Tree.trace, traceAll, around, walkType_eq t]
  | .listNil b => rfl

theorem walkTypes_eq (ts : List Ty) : unlessNil walkTypes ts = traceAll (group .types Spec.tyTree ts) :=
  walk_group ts walkType_eq

theorem walkTypeCondition_eq (t : Ty) : walkTypeCondition t = (Spec.condTree t).trace := by
  simp [walkTypeCondition, Spec.condTree, Tree.trace, traceAll, around, walkType_eq t]

mutual
theorem walkValue_eq : ∀ v, walkValue v = (Spec.valueTree v).trace
  | .bool b | .enum n | .float f | .int i | .null | .str s | .var n => by
    simp [walkValue, Spec.valueTree, Tree.trace, traceAll, around]
  | .list vs => by
    simp [walkValue, Spec.valueTree, Tree.trace, traceAll, around, walkValues_eq vs]
  | .obj fs => by
    simp [walkValue, Spec.valueTree, Tree.trace, traceAll, around, walkObjectFields_eq fs]
theorem walkValues_eq : ∀ vs, walkValues vs = traceAll (Spec.valueTrees vs)
  | [] => rfl
  | v :: vs => by simp [walkValues, Spec.valueTrees, traceAll, walkValue_eq v, walkValues_eq vs]
theorem walkObjectFields_eq : ∀ fs, walkObjectFields fs = traceAll (Spec.fieldTrees fs)
  | [] => rfl
  | (n, v) :: fs => by
    simp [walkObjectFields, Spec.fieldTrees, Tree.trace, traceAll, around, walkValue_eq v, walkObjectFields_eq fs]
end

theorem walkArgument_eq (a : Argument) : walkArgument a = (Spec.argTree a).trace := by
  simp [walkArgument, Spec.argTree, Tree.trace, traceAll, around, walkValue_eq]

theorem walkArguments_eq (as : List Argument) : unlessNil walkArguments as = traceAll (group .arguments Spec.argTree as) :=
  walk_group as walkArgument_eq

theorem walkDirective_eq (d : Directive) : walkDirective d = (Spec.dirTree d).trace := by
  simp [walkDirective, Spec.dirTree, Tree.trace, around, walkArguments_eq]

theorem walkDirectives_eq (ds : List Directive) : unlessNil walkDirectives ds = traceAll (group .directives Spec.dirTree ds) :=
  walk_group ds walkDirective_eq

theorem walkOptCond_eq (c : Option Ty) : unlessNone walkTypeCondition c = traceAll (c.toList.map Spec.condTree) := by
  cases c <;> simp [unlessNone, traceAll, walkTypeCondition_eq]

theorem walkOptValue_eq (c : Option Value) : unlessNone walkValue c = traceAll (c.toList.map Spec.valueTree) := by
  cases c <;> simp [unlessNone, traceAll, walkValue_eq]

mutual
theorem walkSelection_eq : ∀ s, walkSelection s = (Spec.selTree s).trace
  | .field al n as ds ss => by
    unfold walkSelection Spec.selTree
    simp only [around, Tree.trace, Spec.traceAll_one, Spec.traceAll_append, walkArguments_eq, walkDirectives_eq, walkSelections_eq ss, Spec.selSet]
  | .spread n ds => by
    unfold walkSelection Spec.selTree
    simp only [around, Tree.trace, Spec.traceAll_one, walkDirectives_eq]
  | .inline c ds ss => by
    unfold walkSelection Spec.selTree
    simp only [around, Tree.trace, Spec.traceAll_one, Spec.traceAll_append, walkOptCond_eq, walkDirectives_eq, walkSelections_eq ss, Spec.selSet]
theorem walkSelections_eq : ∀ ss, walkSelections ss = traceAll (Spec.selSet ss)
  | [] => rfl
  | s :: ss => by
    simp [walkSelections, Spec.selSet, Spec.selTrees, around, Tree.trace, traceAll, walkSelection_eq s, walkSelectionItems_eq ss]
theorem walkSelectionItems_eq : ∀ ss, walkSelectionItems ss = traceAll (Spec.selTrees ss)
  | [] => rfl
  | s :: ss => by simp [walkSelectionItems, Spec.selTrees, traceAll, walkSelection_eq s, walkSelectionItems_eq ss]
end

theorem walkVariableDefinition_eq (v : VarDef) : walkVariableDefinition v = (Spec.varDefTree v).trace := by
  simp only [walkVariableDefinition, Spec.varDefTree, Tree.trace, traceAll, around, walkType_eq, walkOptValue_eq]

theorem walkVariableDefinitions_eq (vs : List VarDef) :
    unlessNil walkVariableDefinitions vs = traceAll (group .variableDefinitions Spec.varDefTree vs) :=
  walk_group vs walkVariableDefinition_eq

theorem walkOperationDefinition_eq (i : Nat) (o : OpDef) : walkOperationDefinition i o = (Spec.opTree i o).trace := by
  cases hk : o.kind <;>
    simp only [walkOperationDefinition, Spec.opTree, hk, Tree.trace, Spec.traceAll_one, around, walkOperationBody, walkVariableDefinitions_eq,
      walkDirectives_eq, walkSelections_eq, Spec.traceAll_append]

theorem walkFragmentDefinition_eq (f : FragDef) : walkFragmentDefinition f = (Spec.fragTree f).trace := by
  simp only [walkFragmentDefinition, Spec.fragTree, Tree.trace, traceAll, around, walkTypeCondition_eq, walkDirectives_eq, walkSelections_eq,
    Spec.traceAll_append, List.append_assoc]

theorem walkInputValueDefinition_eq (v : InputVal) : walkInputValueDefinition v = (Spec.inputValueTree false v).trace := by
  simp only [walkInputValueDefinition, Spec.inputValueTree, Tree.trace, traceAll, around, walkType_eq, walkDirectives_eq, walkOptValue_eq,
    Spec.traceAll_append, Bool.false_eq_true, ↓reduceIte, List.append_assoc]

theorem walkInputValueDefinitions_eq (vs : List InputVal) :
    unlessNil walkInputValueDefinitions vs = traceAll (group .inputValueDefinitions (Spec.inputValueTree false) vs) :=
  walk_group vs walkInputValueDefinition_eq

theorem walkFieldDefinition_eq (f : FieldDef) : walkFieldDefinition f = (Spec.fieldDefTree false f).trace := by
  simp only [walkFieldDefinition, Spec.fieldDefTree, Tree.trace, traceAll, around, walkType_eq, walkDirectives_eq, walkInputValueDefinitions_eq,
    Spec.traceAll_append, List.append_assoc]

theorem walkFieldDefinitions_eq (fs : List FieldDef) :
    unlessNil walkFieldDefinitions fs = traceAll (group .fieldDefinitions (Spec.fieldDefTree false) fs) :=
  walk_group fs walkFieldDefinition_eq

theorem walkEnumValueDefinition_eq (v : EnumVal) : walkEnumValueDefinition v = (Spec.enumValTree v).trace := by
  simp only [walkEnumValueDefinition, Spec.enumValTree, Tree.trace, around, walkDirectives_eq]

theorem walkEnumValueDefinitions_eq (vs : List EnumVal) :
    unlessNil walkEnumValueDefinitions vs = traceAll (group .enumValueDefinitions Spec.enumValTree vs) :=
  walk_group vs walkEnumValueDefinition_eq

theorem walkTypeDefinition_eq (t : TypeDef) : walkTypeDefinition t = (Spec.typeDefTree false t).trace := by
  cases hk : t.kind <;>
    simp only [walkTypeDefinition, Spec.typeDefTree, Spec.typeMembers, hk, Tree.trace, Spec.traceAll_one, around, walkTypeDefinitionBody,
      walkTypes_eq, walkFieldDefinitions_eq, walkDirectives_eq, walkEnumValueDefinitions_eq, walkInputValueDefinitions_eq,
      Spec.traceAll_append, List.append_assoc]

theorem walkTypeExtension_eq (t : TypeDef) : walkTypeExtension t = (Spec.typeExtTree false t).trace := by
  cases hk : t.kind <;>
    simp only [walkTypeExtension, Spec.typeExtTree, Spec.typeMembers, hk, Tree.trace, Spec.traceAll_one, around, walkTypeExtensionBody,
      walkTypes_eq, walkFieldDefinitions_eq, walkDirectives_eq, walkEnumValueDefinitions_eq, walkInputValueDefinitions_eq,
      Spec.traceAll_append, List.append_assoc, Bool.false_eq_true, ↓reduceIte]

theorem walkOperationTypeDefinition_eq (o : OpTypeDef) : walkOperationTypeDefinition o = (Spec.opTypeTree o).trace := by
  simp only [walkOperationTypeDefinition, Spec.opTypeTree, Tree.trace, Spec.traceAll_one, around, walkType_eq]

theorem walkOperationTypeDefinitions_eq (os : List OpTypeDef) :
    unlessNil walkOperationTypeDefinitions os = traceAll (group .operationTypeDefinitions Spec.opTypeTree os) :=
  walk_group os walkOperationTypeDefinition_eq

theorem walkDefinition_eq (i : Nat) (d : Definition) : walkDefinition i d = (Spec.defTree false i d).trace := by
  obtain ⟨loc, b⟩ := d
  cases b <;>
    simp only [walkDefinition, Spec.defTree, Tree.trace, Spec.traceAll_one, around, walkOperationDefinition_eq, walkFragmentDefinition_eq,
      walkSchemaDefinition, walkSchemaExtension, walkTypeDefinition_eq, walkTypeExtension_eq, walkDirectiveDefinition,
      walkInputValueDefinitions_eq, walkDirectives_eq, walkOperationTypeDefinitions_eq, Spec.schemaKids, Spec.traceAll_append]

theorem walkDefinitionItems_eq : ∀ i ds, walkDefinitionItems i ds = traceAll (Spec.defTrees false i ds)
  | _, [] => rfl
  | i, d :: ds => by simp only [walkDefinitionItems, Spec.defTrees, traceAll, walkDefinition_eq, walkDefinitionItems_eq (i + 1) ds]

theorem walkDocument_eq (d : Document) : walkDocument d = (Spec.docTree false d).trace := by
  unfold walkDocument Spec.docTree
  rcases h : d.defs with _ | ⟨x, ds⟩
  · simp [unlessNil, around, Tree.trace, traceAll]
  · simp only [unlessNil, walkDefinitions, around, walkDefinitionItems_eq, Tree.trace, List.isEmpty_cons, Bool.false_eq_true, ↓reduceIte,
      Spec.traceAll_one]

/-! ### The nodes do not depend on the order of the children -/

theorem Spec.nodesAll_map_perm {α : Type} {f g : α → Tree} (h : ∀ x, (f x).nodes.Perm (g x).nodes) :
    ∀ l : List α, (nodesAll (l.map f)).Perm (nodesAll (l.map g))
  | [] => .refl _
  | a :: l => by
    simp only [List.map_cons, nodesAll]
    exact (h a).append (Spec.nodesAll_map_perm h l)

theorem Spec.nodesAll_group_perm {α : Type} {mk : List α → ANode} {f g : α → Tree} (h : ∀ x, (f x).nodes.Perm (g x).nodes) (l : List α) :
    (nodesAll (group mk f l)).Perm (nodesAll (group mk g l)) := by
  rcases l with _ | ⟨a, l⟩
  · exact .refl _
  · simp only [group, List.isEmpty_cons, Bool.false_eq_true, ↓reduceIte, nodesAll, Tree.nodes, List.append_nil]
    exact .cons _ (Spec.nodesAll_map_perm h _)

theorem Spec.inputValueTree_perm (v : InputVal) : (Spec.inputValueTree false v).nodes.Perm (Spec.inputValueTree true v).nodes := by
  simp only [Spec.inputValueTree, Tree.nodes, nodesAll, Bool.false_eq_true, ↓reduceIte, Spec.nodesAll_append]
  exact .cons _ (.append (.refl _) List.perm_append_comm)

theorem Spec.fieldDefTree_perm (f : FieldDef) : (Spec.fieldDefTree false f).nodes.Perm (Spec.fieldDefTree true f).nodes := by
  simp only [Spec.fieldDefTree, Tree.nodes, Spec.nodesAll_append]
  exact .cons _ (.append (Spec.nodesAll_group_perm Spec.inputValueTree_perm _) (.refl _))

theorem Spec.typeMembers_perm (t : TypeDef) : (nodesAll (Spec.typeMembers false t)).Perm (nodesAll (Spec.typeMembers true t)) := by
  simp only [Spec.typeMembers, Spec.nodesAll_append]
  exact .append (.append (.append (Spec.nodesAll_group_perm Spec.fieldDefTree_perm _) (.refl _)) (.refl _))
    (Spec.nodesAll_group_perm Spec.inputValueTree_perm _)

theorem Spec.nodes_one_perm {n : ANode} {a b : List Tree} (h : (nodesAll a).Perm (nodesAll b)) :
    (Tree.node n a).nodes.Perm (Tree.node n b).nodes := by
  simp only [Tree.nodes]; exact .cons _ h

theorem Spec.nodesAll_one_perm {a b : Tree} (h : a.nodes.Perm b.nodes) : (nodesAll [a]).Perm (nodesAll [b]) := by
  simp only [nodesAll, List.append_nil]; exact h

theorem Spec.typeDefTree_perm (t : TypeDef) : (Spec.typeDefTree false t).nodes.Perm (Spec.typeDefTree true t).nodes := by
  unfold Spec.typeDefTree
  cases t.kind <;> refine Spec.nodes_one_perm (Spec.nodesAll_one_perm (Spec.nodes_one_perm ?_)) <;>
    (simp only [Spec.nodesAll_append]; exact .append (.refl _) (Spec.typeMembers_perm t))

theorem Spec.typeExtTree_perm (t : TypeDef) : (Spec.typeExtTree false t).nodes.Perm (Spec.typeExtTree true t).nodes := by
  unfold Spec.typeExtTree
  cases t.kind <;> refine Spec.nodes_one_perm (Spec.nodesAll_one_perm (Spec.nodes_one_perm ?_)) <;>
    (simp only [Spec.nodesAll_append, Bool.false_eq_true, ↓reduceIte]; exact .append List.perm_append_comm (Spec.typeMembers_perm t))

theorem Spec.defTree_perm (i : Nat) (d : Definition) : (Spec.defTree false i d).nodes.Perm (Spec.defTree true i d).nodes := by
  obtain ⟨loc, b⟩ := d
  unfold Spec.defTree
  refine Spec.nodes_one_perm (Spec.nodesAll_one_perm ?_)
  cases b
  · exact .refl _
  · exact .refl _
  · exact .refl _
  · exact Spec.nodes_one_perm (Spec.nodesAll_one_perm (Spec.typeDefTree_perm _))
  · exact Spec.nodes_one_perm (Spec.nodesAll_one_perm (Spec.nodes_one_perm (Spec.nodesAll_group_perm Spec.inputValueTree_perm _)))
  · exact .refl _
  · exact Spec.nodes_one_perm (Spec.nodesAll_one_perm (Spec.typeExtTree_perm _))

theorem Spec.defTrees_perm : ∀ i ds, (nodesAll (Spec.defTrees false i ds)).Perm (nodesAll (Spec.defTrees true i ds))
  | _, [] => .refl _
  | i, d :: ds => by
    simp only [Spec.defTrees, nodesAll]
    exact (Spec.defTree_perm i d).append (Spec.defTrees_perm (i + 1) ds)

theorem Spec.docTree_perm (d : Document) : (Spec.docTree false d).nodes.Perm (Spec.docTree true d).nodes := by
  unfold Spec.docTree
  refine Spec.nodes_one_perm ?_
  split
  · exact .refl _
  · exact Spec.nodesAll_one_perm (Spec.nodes_one_perm (Spec.defTrees_perm _ _))

/-! ### Enter and leave events of a trace -/

/-- The nodes that are entered, in order. -/
def enters : List Event → List ANode
  | [] => []
  | .enter n :: es => n :: enters es
  | .leave _ :: es => enters es

/-- The nodes that are left, in order. -/
def leaves : List Event → List ANode
  | [] => []
  | .leave n :: es => n :: leaves es
  | .enter _ :: es => leaves es

theorem enters_append : ∀ a b, enters (a ++ b) = enters a ++ enters b
  | [], _ => rfl
  | .enter n :: a, b => by simp [enters, enters_append a b]
  | .leave n :: a, b => by simp [enters, enters_append a b]

theorem leaves_append : ∀ a b, leaves (a ++ b) = leaves a ++ leaves b
  | [], _ => rfl
  | .enter n :: a, b => by simp [leaves, leaves_append a b]
  | .leave n :: a, b => by simp [leaves, leaves_append a b]

mutual
theorem enters_trace : ∀ t : Tree, enters t.trace = t.nodes
  | .node n ks => by simp [Tree.trace, Tree.nodes, enters, enters_append, enters_traceAll ks]
theorem enters_traceAll : ∀ ts : List Tree, enters (traceAll ts) = nodesAll ts
  | [] => rfl
  | t :: ts => by simp [traceAll, nodesAll, enters_append, enters_trace t, enters_traceAll ts]
end

mutual
theorem leaves_trace : ∀ t : Tree, (leaves t.trace).Perm t.nodes
  | .node n ks => by
    simp only [Tree.trace, Tree.nodes, leaves, leaves_append]
    exact List.perm_append_comm.trans (.cons _ (leaves_traceAll ks))
theorem leaves_traceAll : ∀ ts : List Tree, (leaves (traceAll ts)).Perm (nodesAll ts)
  | [] => .refl _
  | t :: ts => by
    simp only [traceAll, nodesAll, leaves_append]
    exact (leaves_trace t).append (leaves_traceAll ts)
end

end GQL
