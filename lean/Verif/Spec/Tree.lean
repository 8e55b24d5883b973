/-
The document as a tree, written down from the grammar: every node with its children in the order in which they stand in
the source text.  With `src = false` two sorts of node have their children in another order (see `inputValueTree` and
`typeExtTree`); everything else is the same.
-/
import Verif.Model.Walker

namespace GQL.Spec

inductive Tree where
  | node (n : ANode) (kids : List Tree)

mutual
/-- All nodes, each before its descendants (pre-order). -/
def Tree.nodes : Tree → List ANode
  | .node n ks => n :: nodesAll ks
def nodesAll : List Tree → List ANode
  | [] => []
  | t :: ts => t.nodes ++ nodesAll ts
end

mutual
/-- The bracket sequence of a tree: enter the node, the children from left to right, leave the node. -/
def Tree.trace : Tree → List Event
  | .node n ks => .enter n :: (traceAll ks ++ [.leave n])
def traceAll : List Tree → List Event
  | [] => []
  | t :: ts => t.trace ++ traceAll ts
end

/-- A list that is not there has no node; otherwise one node with the items below it. -/
def group {α : Type} (mk : List α → ANode) (item : α → Tree) (l : List α) : List Tree :=
  if l.isEmpty then [] else [.node (mk l) (l.map item)]

def tyTree : Ty → Tree
  | .named n b => .node (.type (.named n b)) [.node (.namedType (.named n b)) []]
  | .list t b => .node (.type (.list t b)) [.node (.listType (.list t b)) [tyTree t]]
  | .listNil b => .node (.type (.listNil b)) [.node (.listType (.listNil b)) []]

def condTree (t : Ty) : Tree := .node (.typeCondition t) [tyTree t]

mutual
def valueTree : Value → Tree
  | .var n => .node (.value (.var n)) [.node (.variableValue (.var n)) []]
  | .int i => .node (.value (.int i)) [.node (.intValue (.int i)) []]
  | .float f => .node (.value (.float f)) [.node (.floatValue (.float f)) []]
  | .str s => .node (.value (.str s)) [.node (.stringValue (.str s)) []]
  | .bool b => .node (.value (.bool b)) [.node (.booleanValue (.bool b)) []]
  | .null => .node (.value .null) [.node (.nullValue .null) []]
  | .enum n => .node (.value (.enum n)) [.node (.enumValue (.enum n)) []]
  | .list vs => .node (.value (.list vs)) [.node (.listValue (.list vs)) (valueTrees vs)]
  | .obj fs => .node (.value (.obj fs)) [.node (.objectValue (.obj fs)) (fieldTrees fs)]
def valueTrees : List Value → List Tree
  | [] => []
  | v :: vs => valueTree v :: valueTrees vs
def fieldTrees : List (Bytes × Value) → List Tree
  | [] => []
  | (n, v) :: fs => .node (.objectField n v) [valueTree v] :: fieldTrees fs
end

def argTree (a : Argument) : Tree := .node (.argument a) [valueTree a.value]
def dirTree (d : Directive) : Tree := .node (.directive d) (group .arguments argTree d.args)

mutual
def selTree : Selection → Tree
  | .field al n as ds ss => .node (.selection (.field al n as ds ss)) [.node (.fieldSelection (.field al n as ds ss))
      (group .arguments argTree as ++ group .directives dirTree ds ++
        (if ss.isEmpty then [] else [.node (.selections ss) (selTrees ss)]))]
  | .spread n ds => .node (.selection (.spread n ds)) [.node (.fragmentSpreadSelection (.spread n ds)) (group .directives dirTree ds)]
  | .inline c ds ss => .node (.selection (.inline c ds ss)) [.node (.inlineFragmentSelection (.inline c ds ss))
      (c.toList.map condTree ++ group .directives dirTree ds ++
        (if ss.isEmpty then [] else [.node (.selections ss) (selTrees ss)]))]
def selTrees : List Selection → List Tree
  | [] => []
  | s :: ss => selTree s :: selTrees ss
end

/-- A selection set, if there is one. -/
def selSet (ss : List Selection) : List Tree := if ss.isEmpty then [] else [.node (.selections ss) (selTrees ss)]

def varDefTree (v : VarDef) : Tree := .node (.variableDefinition v) (tyTree v.type :: v.default.toList.map valueTree)

/-- The same children below all three kinds of operation. -/
def opTree (i : Nat) (o : OpDef) : Tree :=
  let kids := group .variableDefinitions varDefTree o.vars ++ group .directives dirTree o.dirs ++ selSet o.sels
  .node (.operationDefinition i o)
    [match o.kind with
      | .query => .node (.queryOperationDefinition o) kids
      | .mutation => .node (.mutationOperationDefinition o) kids
      | .subscription => .node (.subscriptionOperationDefinition o) kids]

def fragTree (f : FragDef) : Tree :=
  .node (.fragmentDefinition f) (condTree f.cond :: (group .directives dirTree f.dirs ++ selSet f.sels))

section
variable (src : Bool)

/-- `name: Type = default @directives`. -/
def inputValueTree (v : InputVal) : Tree :=
  let dflt := v.default.toList.map valueTree
  let dirs := group .directives dirTree v.dirs
  .node (.inputValueDefinition v) (tyTree v.type :: (if src then dflt ++ dirs else dirs ++ dflt))

/-- `name(arguments): Type @directives`. -/
def fieldDefTree (f : FieldDef) : Tree :=
  .node (.fieldDefinition f)
    (group .inputValueDefinitions (inputValueTree src) f.args ++ tyTree f.type :: group .directives dirTree f.dirs)

def enumValTree (v : EnumVal) : Tree := .node (.enumValueDefinition v) (group .directives dirTree v.dirs)

/-- What follows the interfaces and directives: fields, members, values, input fields (a type has at most one of them). -/
def typeMembers (t : TypeDef) : List Tree :=
  group .fieldDefinitions (fieldDefTree src) t.fields ++ group .types tyTree t.members ++
    group .enumValueDefinitions enumValTree t.values ++ group .inputValueDefinitions (inputValueTree src) t.inputs

/-- `type Name implements A & B @directives { ... }`. -/
def typeDefTree (t : TypeDef) : Tree :=
  let kids := group .types tyTree t.ifaces ++ group .directives dirTree t.dirs ++ typeMembers src t
  .node (.typeDefinition t)
    [match t.kind with
      | .scalar => .node (.scalarTypeDefinition t) kids
      | .object => .node (.objectTypeDefinition t) kids
      | .interface => .node (.interfaceTypeDefinition t) kids
      | .union => .node (.unionTypeDefinition t) kids
      | .enum => .node (.enumTypeDefinition t) kids
      | .inputObject => .node (.inputObjectTypeDefinition t) kids]

/-- `extend type Name implements A & B @directives { ... }`. -/
def typeExtTree (t : TypeDef) : Tree :=
  let ifaces := group .types tyTree t.ifaces
  let dirs := group .directives dirTree t.dirs
  let kids := (if src then ifaces ++ dirs else dirs ++ ifaces) ++ typeMembers src t
  .node (.typeExtension t)
    [match t.kind with
      | .scalar => .node (.scalarTypeExtension t) kids
      | .object => .node (.objectTypeExtension t) kids
      | .interface => .node (.interfaceTypeExtension t) kids
      | .union => .node (.unionTypeExtension t) kids
      | .enum => .node (.enumTypeExtension t) kids
      | .inputObject => .node (.inputObjectTypeExtension t) kids]

def opTypeTree (o : OpTypeDef) : Tree := .node (.operationTypeDefinition o) [tyTree o.type]

def schemaKids (s : SchemaDef) : List Tree :=
  group .directives dirTree s.dirs ++ group .operationTypeDefinitions opTypeTree s.ops

/-- The definition number `i` of the document. -/
def defTree (i : Nat) (d : Definition) : Tree :=
  .node (.definition i d)
    [match d.body with
      | .op o => .node (.executableDefinition i d.body) [opTree i o]
      | .frag f => .node (.executableDefinition i d.body) [fragTree f]
      | .schema s => .node (.typeSystemDefinition d.body) [.node (.schemaDefinition s) (schemaKids s)]
      | .type t => .node (.typeSystemDefinition d.body) [typeDefTree src t]
      | .directive dd => .node (.typeSystemDefinition d.body)
          [.node (.directiveDefinition dd) (group .inputValueDefinitions (inputValueTree src) dd.args)]
      | .schemaExt s => .node (.typeSystemExtension d.body) [.node (.schemaExtension s) (schemaKids s)]
      | .typeExt t => .node (.typeSystemExtension d.body) [typeExtTree src t]]

def defTrees : Nat → List Definition → List Tree
  | _, [] => []
  | i, d :: ds => defTree src i d :: defTrees (i + 1) ds

def docTree (d : Document) : Tree :=
  .node (.document d) (if d.defs.isEmpty then [] else [.node (.definitions d.defs) (defTrees src 0 d.defs)])

end

/-- All nodes of a document, in source order. -/
def nodes (d : Document) : List ANode := (docTree true d).nodes

end GQL.Spec
