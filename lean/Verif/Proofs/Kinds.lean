/-
Which kinds of nodes stand below which nodes.
-/
import Verif.Props.C28

namespace GQL
open Spec (Tree nodesAll traceAll group)

theorem Spec.mem_nodesAll {n : ANode} : ∀ {ts : List Tree}, n ∈ nodesAll ts ↔ ∃ t ∈ ts, n ∈ t.nodes
  | [] => by simp [nodesAll]
  | t :: ts => by
    simp only [nodesAll, List.mem_append, Spec.mem_nodesAll (ts := ts), List.mem_cons]
    constructor
    · rintro (h | ⟨t', h1, h2⟩)
      · exact ⟨t, .inl rfl, h⟩
      · exact ⟨t', .inr h1, h2⟩
    · rintro ⟨t', rfl | h1, h2⟩
      · exact .inl h2
      · exact .inr ⟨t', h1, h2⟩

theorem Spec.mem_nodes {n m : ANode} {ks : List Tree} : n ∈ (Tree.node m ks).nodes ↔ n = m ∨ n ∈ nodesAll ks := by
  simp [Tree.nodes]

/-- All nodes of the trees have one of the kinds. -/
def OfKinds (K : List NodeKind) (ts : List Tree) : Prop := ∀ n ∈ nodesAll ts, n.kind ∈ K

theorem OfKinds.mono {K K' : List NodeKind} {ts : List Tree} (h : OfKinds K ts) (hk : ∀ k ∈ K, k ∈ K') : OfKinds K' ts := fun n hn => hk _ (h n hn)
theorem OfKinds.nil {K : List NodeKind} : OfKinds K [] := fun _ h => by cases h
theorem OfKinds.append {K : List NodeKind} {a b : List Tree} (ha : OfKinds K a) (hb : OfKinds K b) : OfKinds K (a ++ b) := fun n hn => by
  rw [Spec.nodesAll_append, List.mem_append] at hn
  exact hn.elim (ha n) (hb n)
theorem OfKinds.cons {K : List NodeKind} {n : ANode} {ks ts : List Tree} (hn : n.kind ∈ K) (hk : OfKinds K ks) (ht : OfKinds K ts) :
    OfKinds K (.node n ks :: ts) := fun m hm => by
  simp only [nodesAll, Tree.nodes, List.cons_append, List.mem_cons, List.mem_append] at hm
  rcases hm with rfl | hm | hm
  · exact hn
  · exact hk m hm
  · exact ht m hm
theorem OfKinds.cons' {K : List NodeKind} {t : Tree} {ts : List Tree} (ht : OfKinds K [t]) (hs : OfKinds K ts) : OfKinds K (t :: ts) :=
  OfKinds.append (a := [t]) ht hs
theorem OfKinds.map {α : Type} {K : List NodeKind} {f : α → Tree} {l : List α} (h : ∀ x, OfKinds K [f x]) : OfKinds K (l.map f) := by
  intro n hn
  rw [Spec.mem_nodesAll] at hn
  obtain ⟨t, ht, hn⟩ := hn
  obtain ⟨x, _, rfl⟩ := List.mem_map.1 ht
  exact h x n (by simpa [nodesAll] using hn)
theorem OfKinds.group {α : Type} {K : List NodeKind} {mk : List α → ANode} {f : α → Tree} {l : List α} (hmk : (mk l).kind ∈ K)
    (h : ∀ x, OfKinds K [f x]) : OfKinds K (group mk f l) := by
  unfold Spec.group
  split
  · exact .nil
  · exact .cons hmk (.map h) .nil

def tyKinds : List NodeKind := [.type, .namedType, .listType]
def valueKinds : List NodeKind :=
  [.value, .variableValue, .intValue, .floatValue, .stringValue, .booleanValue, .nullValue, .enumValue, .listValue, .objectValue, .objectField]
def dirKinds : List NodeKind := [.directives, .directive, .arguments, .argument] ++ valueKinds
def selKinds : List NodeKind :=
  [.selection, .fieldSelection, .fragmentSpreadSelection, .inlineFragmentSelection, .selections, .typeCondition] ++ tyKinds ++ dirKinds
/-- The kinds below an executable definition. -/
def execKinds : List NodeKind := [.variableDefinitions, .variableDefinition] ++ selKinds
/-- The kinds below a type system definition or extension. -/
def sdlKinds : List NodeKind :=
  [.inputValueDefinitions, .inputValueDefinition, .fieldDefinitions, .fieldDefinition, .enumValueDefinitions, .enumValueDefinition, .types,
   .operationTypeDefinitions, .operationTypeDefinition] ++ tyKinds ++ dirKinds

theorem tyTree_kinds : ∀ t, OfKinds tyKinds [Spec.tyTree t]
  | .named n b => .cons (by simp [ANode.kind, tyKinds]) (.cons (by simp [ANode.kind, tyKinds]) .nil .nil) .nil
  | .list t b => .cons (by simp [ANode.kind, tyKinds]) (.cons (by simp [ANode.kind, tyKinds]) (tyTree_kinds t) .nil) .nil
  | .listNil b => .cons (by simp [ANode.kind, tyKinds]) (.cons (by simp [ANode.kind, tyKinds]) .nil .nil) .nil

mutual
theorem valueTree_kinds : ∀ v, OfKinds valueKinds [Spec.valueTree v]
  | .var _ | .int _ | .float _ | .str _ | .bool _ | .null | .enum _ => by
    unfold Spec.valueTree
    exact .cons (by simp [ANode.kind, valueKinds]) (.cons (by simp [ANode.kind, valueKinds]) .nil .nil) .nil
  | .list vs => by
    unfold Spec.valueTree
    exact .cons (by simp [ANode.kind, valueKinds]) (.cons (by simp [ANode.kind, valueKinds]) (valueTrees_kinds vs) .nil) .nil
  | .obj fs => by
    unfold Spec.valueTree
    exact .cons (by simp [ANode.kind, valueKinds]) (.cons (by simp [ANode.kind, valueKinds]) (fieldTrees_kinds fs) .nil) .nil
theorem valueTrees_kinds : ∀ vs, OfKinds valueKinds (Spec.valueTrees vs)
  | [] => by unfold Spec.valueTrees; exact .nil
  | v :: vs => by unfold Spec.valueTrees; exact .cons' (valueTree_kinds v) (valueTrees_kinds vs)
theorem fieldTrees_kinds : ∀ fs, OfKinds valueKinds (Spec.fieldTrees fs)
  | [] => by unfold Spec.fieldTrees; exact .nil
  | (n, v) :: fs => by
    unfold Spec.fieldTrees
    exact .cons (by simp [ANode.kind, valueKinds]) (valueTree_kinds v) (fieldTrees_kinds fs)
end

theorem dirs_kinds (ds : List Directive) : OfKinds dirKinds (group .directives Spec.dirTree ds) := by
  refine .group (by simp [ANode.kind, dirKinds]) fun d => .cons (by simp [ANode.kind, dirKinds]) (.group (by simp [ANode.kind, dirKinds]) fun a => ?_) .nil
  exact .cons (by simp [ANode.kind, dirKinds]) ((valueTree_kinds a.value).mono (by simp +contextual [dirKinds])) .nil

theorem args_kinds (as : List Argument) : OfKinds dirKinds (group .arguments Spec.argTree as) := by
  refine .group (by simp [ANode.kind, dirKinds]) fun a => ?_
  exact .cons (by simp [ANode.kind, dirKinds]) ((valueTree_kinds a.value).mono (by simp +contextual [dirKinds])) .nil

theorem cond_kinds (t : Ty) : OfKinds selKinds [Spec.condTree t] :=
  .cons (by simp [ANode.kind, selKinds]) ((tyTree_kinds t).mono (by simp +contextual [selKinds])) .nil

mutual
theorem selTree_kinds : ∀ s, OfKinds selKinds [Spec.selTree s]
  | .field al n as ds ss => by
    unfold Spec.selTree
    refine .cons (by simp [ANode.kind, selKinds]) (.cons (by simp [ANode.kind, selKinds]) (.append (.append ?_ ?_) ?_) .nil) .nil
    · exact (args_kinds as).mono (by simp +contextual [selKinds])
    · exact (dirs_kinds ds).mono (by simp +contextual [selKinds])
    · split
      · exact .nil
      · exact .cons (by simp [ANode.kind, selKinds]) (selTrees_kinds ss) .nil
  | .spread n ds => by
    unfold Spec.selTree
    refine .cons (by simp [ANode.kind, selKinds]) (.cons (by simp [ANode.kind, selKinds]) ?_ .nil) .nil
    exact (dirs_kinds ds).mono (by simp +contextual [selKinds])
  | .inline c ds ss => by
    unfold Spec.selTree
    refine .cons (by simp [ANode.kind, selKinds]) (.cons (by simp [ANode.kind, selKinds]) (.append (.append ?_ ?_) ?_) .nil) .nil
    · exact .map cond_kinds
    · exact (dirs_kinds ds).mono (by simp +contextual [selKinds])
    · split
      · exact .nil
      · exact .cons (by simp [ANode.kind, selKinds]) (selTrees_kinds ss) .nil
theorem selTrees_kinds : ∀ ss, OfKinds selKinds (Spec.selTrees ss)
  | [] => by unfold Spec.selTrees; exact .nil
  | s :: ss => by unfold Spec.selTrees; exact .cons' (selTree_kinds s) (selTrees_kinds ss)
end

theorem selSet_kinds (ss : List Selection) : OfKinds selKinds (Spec.selSet ss) := by
  unfold Spec.selSet
  split
  · exact .nil
  · exact .cons (by simp [ANode.kind, selKinds]) (selTrees_kinds ss) .nil

theorem varDefs_kinds (vs : List VarDef) : OfKinds execKinds (group .variableDefinitions Spec.varDefTree vs) := by
  refine .group (by simp [ANode.kind, execKinds]) fun v => .cons (by simp [ANode.kind, execKinds]) (.cons' ?_ (.map fun x => ?_)) .nil
  · exact (tyTree_kinds v.type).mono (by simp +contextual [execKinds, selKinds])
  · exact (valueTree_kinds x).mono (by simp +contextual [execKinds, selKinds, dirKinds])

variable (src : Bool)

theorem inputValueTree_kinds (v : InputVal) : OfKinds sdlKinds [Spec.inputValueTree src v] := by
  refine .cons (by simp [ANode.kind, sdlKinds]) (.cons' ((tyTree_kinds v.type).mono (by simp +contextual [sdlKinds])) ?_) .nil
  have h1 : OfKinds sdlKinds (v.default.toList.map Spec.valueTree) :=
    .map fun x => (valueTree_kinds x).mono (by simp +contextual [sdlKinds, dirKinds])
  have h2 : OfKinds sdlKinds (group .directives Spec.dirTree v.dirs) := (dirs_kinds _).mono (by simp +contextual [sdlKinds])
  cases src
  · exact h2.append h1
  · exact h1.append h2

theorem inputVals_kinds (vs : List InputVal) : OfKinds sdlKinds (group .inputValueDefinitions (Spec.inputValueTree src) vs) :=
  .group (by simp [ANode.kind, sdlKinds]) (inputValueTree_kinds src)

theorem fieldDefTree_kinds (f : FieldDef) : OfKinds sdlKinds [Spec.fieldDefTree src f] := by
  refine .cons (by simp [ANode.kind, sdlKinds]) (.append (inputVals_kinds src _) (.cons' ?_ ?_)) .nil
  · exact (tyTree_kinds f.type).mono (by simp +contextual [sdlKinds])
  · exact (dirs_kinds _).mono (by simp +contextual [sdlKinds])

theorem types_kinds (ts : List Ty) : OfKinds sdlKinds (group .types Spec.tyTree ts) :=
  .group (by simp [ANode.kind, sdlKinds]) fun t => (tyTree_kinds t).mono (by simp +contextual [sdlKinds])

theorem sdlDirs_kinds (ds : List Directive) : OfKinds sdlKinds (group .directives Spec.dirTree ds) := (dirs_kinds ds).mono (by simp +contextual [sdlKinds])

theorem typeMembers_kinds (t : TypeDef) : OfKinds sdlKinds (Spec.typeMembers src t) := by
  unfold Spec.typeMembers
  refine .append (.append (.append ?_ (types_kinds _)) ?_) (inputVals_kinds src _)
  · exact .group (by simp [ANode.kind, sdlKinds]) (fieldDefTree_kinds src)
  · exact .group (by simp [ANode.kind, sdlKinds]) fun v => .cons (by simp [ANode.kind, sdlKinds]) (sdlDirs_kinds _) .nil

theorem schemaKids_kinds (s : SchemaDef) : OfKinds sdlKinds (Spec.schemaKids s) := by
  unfold Spec.schemaKids
  refine .append (sdlDirs_kinds _) (.group (by simp [ANode.kind, sdlKinds]) fun o => .cons (by simp [ANode.kind, sdlKinds]) ?_ .nil)
  exact (tyTree_kinds o.type).mono (by simp +contextual [sdlKinds])

/-! ### The nodes of a definition: first the top ones, then the others -/

/-- The node of the kind of operation. -/
def opKindNode (o : OpDef) : ANode :=
  match o.kind with
  | .query => .queryOperationDefinition o
  | .mutation => .mutationOperationDefinition o
  | .subscription => .subscriptionOperationDefinition o

def typeDefKindNode (t : TypeDef) : ANode :=
  match t.kind with
  | .scalar => .scalarTypeDefinition t
  | .object => .objectTypeDefinition t
  | .interface => .interfaceTypeDefinition t
  | .union => .unionTypeDefinition t
  | .enum => .enumTypeDefinition t
  | .inputObject => .inputObjectTypeDefinition t

def typeExtKindNode (t : TypeDef) : ANode :=
  match t.kind with
  | .scalar => .scalarTypeExtension t
  | .object => .objectTypeExtension t
  | .interface => .interfaceTypeExtension t
  | .union => .unionTypeExtension t
  | .enum => .enumTypeExtension t
  | .inputObject => .inputObjectTypeExtension t

/-- The top nodes of a definition, each the only child of the one before. -/
def topNodes (i : Nat) (d : Definition) : List ANode :=
  .definition i d ::
    (match d.body with
      | .op o => [.executableDefinition i d.body, .operationDefinition i o, opKindNode o]
      | .frag f => [.executableDefinition i d.body, .fragmentDefinition f]
      | .schema s => [.typeSystemDefinition d.body, .schemaDefinition s]
      | .type t => [.typeSystemDefinition d.body, .typeDefinition t, typeDefKindNode t]
      | .directive dd => [.typeSystemDefinition d.body, .directiveDefinition dd]
      | .schemaExt s => [.typeSystemExtension d.body, .schemaExtension s]
      | .typeExt t => [.typeSystemExtension d.body, .typeExtension t, typeExtKindNode t])

/-- What is below them. -/
def innerTrees (d : Definition) : List Tree :=
  match d.body with
  | .op o => group .variableDefinitions Spec.varDefTree o.vars ++ group .directives Spec.dirTree o.dirs ++ Spec.selSet o.sels
  | .frag f => Spec.condTree f.cond :: (group .directives Spec.dirTree f.dirs ++ Spec.selSet f.sels)
  | .schema s => Spec.schemaKids s
  | .type t => group .types Spec.tyTree t.ifaces ++ group .directives Spec.dirTree t.dirs ++ Spec.typeMembers src t
  | .directive dd => group .inputValueDefinitions (Spec.inputValueTree src) dd.args
  | .schemaExt s => Spec.schemaKids s
  | .typeExt t =>
    (if src then group .types Spec.tyTree t.ifaces ++ group .directives Spec.dirTree t.dirs
      else group .directives Spec.dirTree t.dirs ++ group .types Spec.tyTree t.ifaces) ++ Spec.typeMembers src t

/-- A chain of nodes, each the only child of the one before. -/
def chain : List ANode → List Tree → List Tree
  | [], ts => ts
  | n :: ns, ts => [.node n (chain ns ts)]

theorem defTree_chain (i : Nat) (d : Definition) : [Spec.defTree src i d] = chain (topNodes i d) (innerTrees src d) := by
  obtain ⟨loc, b⟩ := d
  cases b with
  | op o => obtain ⟨k, _, _, _, _⟩ := o; cases k <;> rfl
  | type t => obtain ⟨_, _, k, _, _, _, _, _, _⟩ := t; cases k <;> rfl
  | typeExt t => obtain ⟨_, _, k, _, _, _, _, _, _⟩ := t; cases k <;> cases src <;> rfl
  | _ => rfl

theorem chain_nodes : ∀ ns ts, nodesAll (chain ns ts) = ns ++ nodesAll ts
  | [], _ => rfl
  | n :: ns, ts => by simp [chain, nodesAll, Tree.nodes, chain_nodes ns ts]

theorem chain_trace : ∀ ns ts, traceAll (chain ns ts) = ns.map Event.enter ++ traceAll ts ++ ns.reverse.map Event.leave
  | [], _ => by simp [chain]
  | n :: ns, ts => by simp [chain, traceAll, Tree.trace, chain_trace ns ts]

theorem defTree_nodes (i : Nat) (d : Definition) : (Spec.defTree src i d).nodes = topNodes i d ++ nodesAll (innerTrees src d) := by
  rw [← chain_nodes, ← defTree_chain]; simp [nodesAll]

theorem defTree_trace (i : Nat) (d : Definition) : (Spec.defTree src i d).trace =
    (topNodes i d).map Event.enter ++ traceAll (innerTrees src d) ++ (topNodes i d).reverse.map Event.leave := by
  rw [← chain_trace, ← defTree_chain]; simp [traceAll]

theorem innerTrees_kinds (d : Definition) :
    match d.body with
    | .op _ | .frag _ => OfKinds execKinds (innerTrees src d)
    | _ => OfKinds sdlKinds (innerTrees src d) := by
  obtain ⟨loc, b⟩ := d
  cases b with
  | op o =>
    refine .append (.append (varDefs_kinds _) ?_) ?_
    · exact (dirs_kinds _).mono (by simp +contextual [execKinds, selKinds])
    · exact (selSet_kinds _).mono (by simp +contextual [execKinds])
  | frag f =>
    refine .cons' ((cond_kinds _).mono (by simp +contextual [execKinds])) (.append ?_ ?_)
    · exact (dirs_kinds _).mono (by simp +contextual [execKinds, selKinds])
    · exact (selSet_kinds _).mono (by simp +contextual [execKinds])
  | schema s => exact schemaKids_kinds s
  | type t => exact .append (.append (types_kinds _) (sdlDirs_kinds _)) (typeMembers_kinds src _)
  | directive dd => exact inputVals_kinds src _
  | schemaExt s => exact schemaKids_kinds s
  | typeExt t =>
    refine .append ?_ (typeMembers_kinds src _)
    cases src
    · exact .append (sdlDirs_kinds _) (types_kinds _)
    · exact .append (types_kinds _) (sdlDirs_kinds _)

/-- The kinds of nodes below the top ones. -/
def innerKinds : List NodeKind := execKinds ++ sdlKinds

theorem innerTrees_kinds_all (d : Definition) : OfKinds innerKinds (innerTrees src d) := by
  have := innerTrees_kinds src d
  obtain ⟨loc, b⟩ := d
  cases b <;> exact this.mono (by simp +contextual [innerKinds])

theorem defTrees_nodes : ∀ i ds, nodesAll (Spec.defTrees src i ds) =
    (ds.zipIdx i).flatMap fun p => topNodes p.2 p.1 ++ nodesAll (innerTrees src p.1)
  | _, [] => rfl
  | i, d :: ds => by
    simp only [Spec.defTrees, nodesAll, defTree_nodes, defTrees_nodes (i + 1) ds, List.zipIdx_cons, List.flatMap_cons]

theorem defTrees_trace : ∀ i ds, traceAll (Spec.defTrees src i ds) = (ds.zipIdx i).flatMap fun p =>
    (topNodes p.2 p.1).map Event.enter ++ traceAll (innerTrees src p.1) ++ (topNodes p.2 p.1).reverse.map Event.leave
  | _, [] => rfl
  | i, d :: ds => by
    simp only [Spec.defTrees, traceAll, defTree_trace, defTrees_trace (i + 1) ds, List.zipIdx_cons, List.flatMap_cons]

theorem docTree_nodes (d : Document) : (Spec.docTree src d).nodes =
    .document d :: (if d.defs.isEmpty then [] else [.definitions d.defs]) ++
      d.defs.zipIdx.flatMap fun p => topNodes p.2 p.1 ++ nodesAll (innerTrees src p.1) := by
  unfold Spec.docTree
  rcases e : d.defs with _ | ⟨x, ds⟩
  · rfl
  · simp [Tree.nodes, nodesAll, defTrees_nodes]

theorem docTree_trace (d : Document) : (Spec.docTree src d).trace =
    .enter (.document d) :: (if d.defs.isEmpty then [] else [.enter (.definitions d.defs)]) ++
      (d.defs.zipIdx.flatMap fun p =>
        (topNodes p.2 p.1).map Event.enter ++ traceAll (innerTrees src p.1) ++ (topNodes p.2 p.1).reverse.map Event.leave) ++
      (if d.defs.isEmpty then [] else [.leave (.definitions d.defs)]) ++ [.leave (.document d)] := by
  unfold Spec.docTree
  rcases e : d.defs with _ | ⟨x, ds⟩
  · rfl
  · simp [Tree.trace, traceAll, defTrees_trace]

/-- A function on nodes that is empty on the inner kinds only sees the top nodes. -/
theorem nodes_flatMap_top {β : Type} (f : ANode → List β) (h : ∀ n, n.kind ∈ innerKinds → f n = []) (h1 : ∀ d, f (.document d) = [])
    (h2 : ∀ ds, f (.definitions ds) = []) (d : Document) :
    (Spec.docTree src d).nodes.flatMap f = d.defs.zipIdx.flatMap fun p => (topNodes p.2 p.1).flatMap f := by
  rw [docTree_nodes]
  have e : ((.document d :: if d.defs.isEmpty then [] else [.definitions d.defs]) : List ANode).flatMap f = [] := by
    split <;> simp [h1, h2]
  rw [List.flatMap_append, e, List.nil_append, List.flatMap_assoc]
  rw [List.flatMap_def, List.flatMap_def]
  congr 1
  refine List.map_congr_left fun p _ => ?_
  rw [List.flatMap_append]
  have : (nodesAll (innerTrees src p.1)).flatMap f = [] := List.flatMap_eq_nil_iff.2 fun n hn => h n (innerTrees_kinds_all src p.1 n hn)
  rw [this, List.append_nil]

end GQL
