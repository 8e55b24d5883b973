/-
Model of validation/walker.go.

The walker is generated code: for each of the kinds of AST node there are two slices of handlers, a pair of Add functions, a
pair of On functions that call the handlers of a slice in order, and a walk function.  The model gives the sequence of On calls a
walk makes (`walkDocument`), as a list of events; `Walker.walk` runs the handlers over it.

Simplifications: the kinds that no walk reaches (locations, and the path nodes, which the parser never creates) are left
out; a handler cannot change the document while it is walked; handlers are total functions on the context.
A pointer to a definition or to an executable definition is identified by the index of the definition in the document.
-/
import Verif.Model.Ast

namespace GQL

/-- The kinds of AST node that have handlers (validation/walker.go:7-78). -/
inductive NodeKind where
  | argument | arguments | booleanValue | definition | definitions | directive | directiveDefinition
  | directives | document | enumTypeDefinition | enumTypeExtension | enumValue | enumValueDefinition
  | enumValueDefinitions | executableDefinition | fieldDefinition | fieldDefinitions | fieldSelection
  | floatValue | fragmentDefinition | fragmentSpreadSelection | inlineFragmentSelection
  | inputObjectTypeDefinition | inputObjectTypeExtension | inputValueDefinition | inputValueDefinitions
  | intValue | interfaceTypeDefinition | interfaceTypeExtension | listType | listValue
  | mutationOperationDefinition | namedType | nullValue | objectField | objectTypeDefinition
  | objectTypeExtension | objectValue | operationDefinition | operationTypeDefinition | operationTypeDefinitions
  | queryOperationDefinition | scalarTypeDefinition | scalarTypeExtension | schemaDefinition | schemaExtension
  | selection | selections | stringValue | subscriptionOperationDefinition | type | typeCondition
  | typeDefinition | typeExtension | typeSystemDefinition | typeSystemExtension | types | unionTypeDefinition
  | unionTypeExtension | value | variableDefinition | variableDefinitions | variableValue
  deriving DecidableEq, Repr

/-- A node as it is handed to the handlers: `ast.Argument`, `*ast.Arguments`, ... -/
inductive ANode where
  | argument (a : Argument)
  | arguments (as : List Argument)
  | booleanValue (v : Value)
  | definition (i : Nat) (d : Definition)
  | definitions (ds : List Definition)
  | directive (d : Directive)
  | directiveDefinition (d : DirDef)
  | directives (ds : List Directive)
  | document (d : Document)
  | enumTypeDefinition (t : TypeDef)
  | enumTypeExtension (t : TypeDef)
  | enumValue (v : Value)
  | enumValueDefinition (v : EnumVal)
  | enumValueDefinitions (vs : List EnumVal)
  | executableDefinition (i : Nat) (b : Body)
  | fieldDefinition (f : FieldDef)
  | fieldDefinitions (fs : List FieldDef)
  | fieldSelection (s : Selection)
  | floatValue (v : Value)
  | fragmentDefinition (f : FragDef)
  | fragmentSpreadSelection (s : Selection)
  | inlineFragmentSelection (s : Selection)
  | inputObjectTypeDefinition (t : TypeDef)
  | inputObjectTypeExtension (t : TypeDef)
  | inputValueDefinition (v : InputVal)
  | inputValueDefinitions (vs : List InputVal)
  | intValue (v : Value)
  | interfaceTypeDefinition (t : TypeDef)
  | interfaceTypeExtension (t : TypeDef)
  | listType (t : Ty)
  | listValue (v : Value)
  | mutationOperationDefinition (o : OpDef)
  | namedType (t : Ty)
  | nullValue (v : Value)
  | objectField (name : Bytes) (v : Value)
  | objectTypeDefinition (t : TypeDef)
  | objectTypeExtension (t : TypeDef)
  | objectValue (v : Value)
  | operationDefinition (i : Nat) (o : OpDef)
  | operationTypeDefinition (o : OpTypeDef)
  | operationTypeDefinitions (os : List OpTypeDef)
  | queryOperationDefinition (o : OpDef)
  | scalarTypeDefinition (t : TypeDef)
  | scalarTypeExtension (t : TypeDef)
  | schemaDefinition (s : SchemaDef)
  | schemaExtension (s : SchemaDef)
  | selection (s : Selection)
  | selections (ss : List Selection)
  | stringValue (v : Value)
  | subscriptionOperationDefinition (o : OpDef)
  | type (t : Ty)
  | typeCondition (t : Ty)
  | typeDefinition (t : TypeDef)
  | typeExtension (t : TypeDef)
  | typeSystemDefinition (b : Body)
  | typeSystemExtension (b : Body)
  | types (ts : List Ty)
  | unionTypeDefinition (t : TypeDef)
  | unionTypeExtension (t : TypeDef)
  | value (v : Value)
  | variableDefinition (v : VarDef)
  | variableDefinitions (vs : List VarDef)
  | variableValue (v : Value)

/-- The kind of a node: which pair of slices of handlers is used for it. -/
def ANode.kind : ANode → NodeKind
  | .argument _ => .argument
  | .arguments _ => .arguments
  | .booleanValue _ => .booleanValue
  | .definition _ _ => .definition
  | .definitions _ => .definitions
  | .directive _ => .directive
  | .directiveDefinition _ => .directiveDefinition
  | .directives _ => .directives
  | .document _ => .document
  | .enumTypeDefinition _ => .enumTypeDefinition
  | .enumTypeExtension _ => .enumTypeExtension
  | .enumValue _ => .enumValue
  | .enumValueDefinition _ => .enumValueDefinition
  | .enumValueDefinitions _ => .enumValueDefinitions
  | .executableDefinition _ _ => .executableDefinition
  | .fieldDefinition _ => .fieldDefinition
  | .fieldDefinitions _ => .fieldDefinitions
  | .fieldSelection _ => .fieldSelection
  | .floatValue _ => .floatValue
  | .fragmentDefinition _ => .fragmentDefinition
  | .fragmentSpreadSelection _ => .fragmentSpreadSelection
  | .inlineFragmentSelection _ => .inlineFragmentSelection
  | .inputObjectTypeDefinition _ => .inputObjectTypeDefinition
  | .inputObjectTypeExtension _ => .inputObjectTypeExtension
  | .inputValueDefinition _ => .inputValueDefinition
  | .inputValueDefinitions _ => .inputValueDefinitions
  | .intValue _ => .intValue
  | .interfaceTypeDefinition _ => .interfaceTypeDefinition
  | .interfaceTypeExtension _ => .interfaceTypeExtension
  | .listType _ => .listType
  | .listValue _ => .listValue
  | .mutationOperationDefinition _ => .mutationOperationDefinition
  | .namedType _ => .namedType
  | .nullValue _ => .nullValue
  | .objectField _ _ => .objectField
  | .objectTypeDefinition _ => .objectTypeDefinition
  | .objectTypeExtension _ => .objectTypeExtension
  | .objectValue _ => .objectValue
  | .operationDefinition _ _ => .operationDefinition
  | .operationTypeDefinition _ => .operationTypeDefinition
  | .operationTypeDefinitions _ => .operationTypeDefinitions
  | .queryOperationDefinition _ => .queryOperationDefinition
  | .scalarTypeDefinition _ => .scalarTypeDefinition
  | .scalarTypeExtension _ => .scalarTypeExtension
  | .schemaDefinition _ => .schemaDefinition
  | .schemaExtension _ => .schemaExtension
  | .selection _ => .selection
  | .selections _ => .selections
  | .stringValue _ => .stringValue
  | .subscriptionOperationDefinition _ => .subscriptionOperationDefinition
  | .type _ => .type
  | .typeCondition _ => .typeCondition
  | .typeDefinition _ => .typeDefinition
  | .typeExtension _ => .typeExtension
  | .typeSystemDefinition _ => .typeSystemDefinition
  | .typeSystemExtension _ => .typeSystemExtension
  | .types _ => .types
  | .unionTypeDefinition _ => .unionTypeDefinition
  | .unionTypeExtension _ => .unionTypeExtension
  | .value _ => .value
  | .variableDefinition _ => .variableDefinition
  | .variableDefinitions _ => .variableDefinitions
  | .variableValue _ => .variableValue

/-- One call of `On...Enter` or `On...Leave`. -/
inductive Event where
  | enter (n : ANode)
  | leave (n : ANode)

/-- The frame of every walk function: `On...Enter`, the children, `On...Leave`. -/
def around (n : ANode) (body : List Event) : List Event := .enter n :: (body ++ [.leave n])

/-- `if x != nil { w.walkX(ctx, x) }` for a linked list. -/
def unlessNil {α : Type} (walk : List α → List Event) (l : List α) : List Event :=
  match l with
  | [] => []
  | _ => walk l

/-- `if x != nil { w.walkX(ctx, *x) }` for a pointer. -/
def unlessNone {α : Type} (walk : α → List Event) (o : Option α) : List Event :=
  match o with
  | none => []
  | some x => walk x

/-- `walkType`, `walkListType`, `walkNamedType` (walker.go:2862-2873, 1613-1621, 1837-1845). -/
def walkType : Ty → List Event
  | .named n b => around (.type (.named n b)) (around (.namedType (.named n b)) [])
  | .list t b => around (.type (.list t b)) (around (.listType (.list t b)) (walkType t))
  | .listNil b => around (.type (.listNil b)) (around (.listType (.listNil b)) [])

/-- `walkTypes` (walker.go:3157-3165). -/
def walkTypes (ts : List Ty) : List Event := around (.types ts) (ts.flatMap walkType)

/-- `walkTypeCondition` (walker.go:2909-2915). -/
def walkTypeCondition (t : Ty) : List Event := around (.typeCondition t) (walkType t)

mutual
/-- `walkValue` (walker.go:3329-3354) and the walk functions of the kinds of values (215-219, 652-656, 976-980, 1445-1449, 1657-1665,
1881-1885, 2091-2099, 2770-2774, 3479-3483). -/
def walkValue : Value → List Event
  | .bool b => around (.value (.bool b)) (around (.booleanValue (.bool b)) [])
  | .enum n => around (.value (.enum n)) (around (.enumValue (.enum n)) [])
  | .float f => around (.value (.float f)) (around (.floatValue (.float f)) [])
  | .int i => around (.value (.int i)) (around (.intValue (.int i)) [])
  | .list vs => around (.value (.list vs)) (around (.listValue (.list vs)) (walkValues vs))
  | .null => around (.value .null) (around (.nullValue .null) [])
  | .obj fs => around (.value (.obj fs)) (around (.objectValue (.obj fs)) (walkObjectFields fs))
  | .str s => around (.value (.str s)) (around (.stringValue (.str s)) [])
  | .var n => around (.value (.var n)) (around (.variableValue (.var n)) [])
/-- The loop of `walkListValue` (walker.go:1660-1662). -/
def walkValues : List Value → List Event
  | [] => []
  | v :: vs => walkValue v ++ walkValues vs
/-- The loop of `walkObjectValue` (walker.go:2094-2096) with `walkObjectField` (1921-1927). -/
def walkObjectFields : List (Bytes × Value) → List Event
  | [] => []
  | (n, v) :: fs => around (.objectField n v) (walkValue v) ++ walkObjectFields fs
end

/-- `walkArgument` (walker.go:129-135). -/
def walkArgument (a : Argument) : List Event := around (.argument a) (walkValue a.value)

/-- `walkArguments` (walker.go:171-179). -/
def walkArguments (as : List Argument) : List Event := around (.arguments as) (as.flatMap walkArgument)

/-- `walkDirective` (walker.go:348-356). -/
def walkDirective (d : Directive) : List Event := around (.directive d) (unlessNil walkArguments d.args)

/-- `walkDirectives` (walker.go:436-444). -/
def walkDirectives (ds : List Directive) : List Event := around (.directives ds) (ds.flatMap walkDirective)

mutual
/-- `walkSelection` (walker.go:2637-2650), `walkFieldSelection` (920-940), `walkFragmentSpreadSelection` (1068-1088) and
`walkInlineFragmentSelection` (1124-1148).  A spread has neither arguments nor selections, an inline fragment no arguments. -/
def walkSelection : Selection → List Event
  | .field al n as ds ss =>
    around (.selection (.field al n as ds ss)) (around (.fieldSelection (.field al n as ds ss))
      (unlessNil walkArguments as ++ unlessNil walkDirectives ds ++ walkSelections ss))
  | .spread n ds =>
    around (.selection (.spread n ds)) (around (.fragmentSpreadSelection (.spread n ds)) (unlessNil walkDirectives ds))
  | .inline c ds ss =>
    around (.selection (.inline c ds ss)) (around (.inlineFragmentSelection (.inline c ds ss))
      (unlessNone walkTypeCondition c ++ unlessNil walkDirectives ds ++ walkSelections ss))
/-- `if s.SelectionSet != nil { w.walkSelections(ctx, s.SelectionSet) }` with `walkSelections` (walker.go:2686-2694). -/
def walkSelections : List Selection → List Event
  | [] => []
  | s :: ss => around (.selections (s :: ss)) (walkSelection s ++ walkSelectionItems ss)
/-- The loop of `walkSelections` (walker.go:2689-2691). -/
def walkSelectionItems : List Selection → List Event
  | [] => []
  | s :: ss => walkSelection s ++ walkSelectionItems ss
end

/-- `walkVariableDefinition` (walker.go:3390-3399). -/
def walkVariableDefinition (v : VarDef) : List Event :=
  around (.variableDefinition v) (walkType v.type ++ unlessNone walkValue v.default)

/-- `walkVariableDefinitions` (walker.go:3435-3443). -/
def walkVariableDefinitions (vs : List VarDef) : List Event := around (.variableDefinitions vs) (vs.flatMap walkVariableDefinition)

/-- The common body of `walkQueryOperationDefinition`, `walkMutationOperationDefinition` and `walkSubscriptionOperationDefinition`
(walker.go:1785-1801, 2361-2377, 2810-2826). -/
def walkOperationBody (o : OpDef) : List Event :=
  unlessNil walkVariableDefinitions o.vars ++ unlessNil walkDirectives o.dirs ++ walkSelections o.sels

/-- `walkOperationDefinition` (walker.go:2135-2148). -/
def walkOperationDefinition (i : Nat) (o : OpDef) : List Event :=
  around (.operationDefinition i o)
    (match o.kind with
      | .mutation => around (.mutationOperationDefinition o) (walkOperationBody o)
      | .query => around (.queryOperationDefinition o) (walkOperationBody o)
      | .subscription => around (.subscriptionOperationDefinition o) (walkOperationBody o))

/-- `walkFragmentDefinition` (walker.go:1016-1032). -/
def walkFragmentDefinition (f : FragDef) : List Event :=
  around (.fragmentDefinition f) (walkTypeCondition f.cond ++ unlessNil walkDirectives f.dirs ++ walkSelections f.sels)

/-- `walkInputValueDefinition` (walker.go:1312-1325). -/
def walkInputValueDefinition (v : InputVal) : List Event :=
  around (.inputValueDefinition v)
    (walkType v.type ++ unlessNil walkDirectives v.dirs ++ unlessNone walkValue v.default)

/-- `walkInputValueDefinitions` (walker.go:1361-1369). -/
def walkInputValueDefinitions (vs : List InputVal) : List Event :=
  around (.inputValueDefinitions vs) (vs.flatMap walkInputValueDefinition)

/-- `walkFieldDefinition` (walker.go:827-840). -/
def walkFieldDefinition (f : FieldDef) : List Event :=
  around (.fieldDefinition f) (unlessNil walkInputValueDefinitions f.args ++ walkType f.type ++ unlessNil walkDirectives f.dirs)

/-- `walkFieldDefinitions` (walker.go:876-884). -/
def walkFieldDefinitions (fs : List FieldDef) : List Event := around (.fieldDefinitions fs) (fs.flatMap walkFieldDefinition)

/-- `walkEnumValueDefinition` (walker.go:692-700). -/
def walkEnumValueDefinition (v : EnumVal) : List Event := around (.enumValueDefinition v) (unlessNil walkDirectives v.dirs)

/-- `walkEnumValueDefinitions` (walker.go:736-744). -/
def walkEnumValueDefinitions (vs : List EnumVal) : List Event := around (.enumValueDefinitions vs) (vs.flatMap walkEnumValueDefinition)

/-- The common body of the walk functions of the six kinds of type definitions (walker.go:524-552, 1184-1212, 1485-1513, 1963-1991,
2413-2441, 3201-3229). -/
def walkTypeDefinitionBody (t : TypeDef) : List Event :=
  unlessNil walkTypes t.ifaces ++ unlessNil walkDirectives t.dirs ++ unlessNil walkFieldDefinitions t.fields ++
    unlessNil walkTypes t.members ++ unlessNil walkEnumValueDefinitions t.values ++ unlessNil walkInputValueDefinitions t.inputs

/-- `walkTypeDefinition` (walker.go:2951-2970). -/
def walkTypeDefinition (t : TypeDef) : List Event :=
  around (.typeDefinition t)
    (match t.kind with
      | .enum => around (.enumTypeDefinition t) (walkTypeDefinitionBody t)
      | .inputObject => around (.inputObjectTypeDefinition t) (walkTypeDefinitionBody t)
      | .interface => around (.interfaceTypeDefinition t) (walkTypeDefinitionBody t)
      | .object => around (.objectTypeDefinition t) (walkTypeDefinitionBody t)
      | .scalar => around (.scalarTypeDefinition t) (walkTypeDefinitionBody t)
      | .union => around (.unionTypeDefinition t) (walkTypeDefinitionBody t))

/-- The common body of the walk functions of the six kinds of type extensions (walker.go:588-616, 1248-1276, 1549-1577, 2027-2055,
2477-2505, 3265-3293): the directives come before the interfaces. -/
def walkTypeExtensionBody (t : TypeDef) : List Event :=
  unlessNil walkDirectives t.dirs ++ unlessNil walkTypes t.ifaces ++ unlessNil walkFieldDefinitions t.fields ++
    unlessNil walkTypes t.members ++ unlessNil walkEnumValueDefinitions t.values ++ unlessNil walkInputValueDefinitions t.inputs

/-- `walkTypeExtension` (walker.go:3006-3025). -/
def walkTypeExtension (t : TypeDef) : List Event :=
  around (.typeExtension t)
    (match t.kind with
      | .enum => around (.enumTypeExtension t) (walkTypeExtensionBody t)
      | .inputObject => around (.inputObjectTypeExtension t) (walkTypeExtensionBody t)
      | .interface => around (.interfaceTypeExtension t) (walkTypeExtensionBody t)
      | .object => around (.objectTypeExtension t) (walkTypeExtensionBody t)
      | .scalar => around (.scalarTypeExtension t) (walkTypeExtensionBody t)
      | .union => around (.unionTypeExtension t) (walkTypeExtensionBody t))

/-- `walkOperationTypeDefinition` (walker.go:2184-2190). -/
def walkOperationTypeDefinition (o : OpTypeDef) : List Event := around (.operationTypeDefinition o) (walkType o.type)

/-- `walkOperationTypeDefinitions` (walker.go:2226-2234). -/
def walkOperationTypeDefinitions (os : List OpTypeDef) : List Event :=
  around (.operationTypeDefinitions os) (os.flatMap walkOperationTypeDefinition)

/-- `walkSchemaDefinition` (walker.go:2541-2553). -/
def walkSchemaDefinition (s : SchemaDef) : List Event :=
  around (.schemaDefinition s) (unlessNil walkDirectives s.dirs ++ unlessNil walkOperationTypeDefinitions s.ops)

/-- `walkSchemaExtension` (walker.go:2589-2601). -/
def walkSchemaExtension (s : SchemaDef) : List Event :=
  around (.schemaExtension s) (unlessNil walkDirectives s.dirs ++ unlessNil walkOperationTypeDefinitions s.ops)

/-- `walkDirectiveDefinition` (walker.go:392-400). -/
def walkDirectiveDefinition (d : DirDef) : List Event :=
  around (.directiveDefinition d) (unlessNil walkInputValueDefinitions d.args)

/-- `walkDefinition` (walker.go:255-268) with `walkExecutableDefinition` (780-791), `walkTypeSystemDefinition` (3061-3074) and
`walkTypeSystemExtension` (3110-3121). -/
def walkDefinition (i : Nat) (d : Definition) : List Event :=
  around (.definition i d)
    (match d.body with
      | .frag f => around (.executableDefinition i d.body) (walkFragmentDefinition f)
      | .op o => around (.executableDefinition i d.body) (walkOperationDefinition i o)
      | .directive dd => around (.typeSystemDefinition d.body) (walkDirectiveDefinition dd)
      | .schema s => around (.typeSystemDefinition d.body) (walkSchemaDefinition s)
      | .type t => around (.typeSystemDefinition d.body) (walkTypeDefinition t)
      | .schemaExt s => around (.typeSystemExtension d.body) (walkSchemaExtension s)
      | .typeExt t => around (.typeSystemExtension d.body) (walkTypeExtension t))

/-- The loop of `walkDefinitions` (walker.go:307-309). -/
def walkDefinitionItems : Nat → List Definition → List Event
  | _, [] => []
  | i, d :: ds => walkDefinition i d ++ walkDefinitionItems (i + 1) ds

/-- `walkDefinitions` (walker.go:304-312). -/
def walkDefinitions (ds : List Definition) : List Event := around (.definitions ds) (walkDefinitionItems 0 ds)

/-- `walkDocument` (walker.go:480-488). -/
def walkDocument (d : Document) : List Event := around (.document d) (unlessNil walkDefinitions d.defs)

/-- A registered handler: for enter or leave events, of one kind of node. -/
structure Reg (γ : Type) where
  onEnter : Bool
  kind : NodeKind
  run : ANode → γ → γ

/-- `Walker` (walker.go:7-78): the handlers in the order of registration.  (In Go they are in one slice per kind and direction, and only the
order within a slice can be observed.) -/
abbrev Walker (γ : Type) := List (Reg γ)

/-- `VisitFunc` (validate.go:9). -/
abbrev VisitFunc (γ : Type) := Walker γ → Walker γ

/-- `Add...EnterEventHandler` (walker.go:106-108 for arguments; the others are the same). -/
def Walker.addEnter {γ : Type} (w : Walker γ) (k : NodeKind) (run : ANode → γ → γ) : Walker γ := w ++ [⟨true, k, run⟩]

/-- `Add...LeaveEventHandler` (walker.go:111-113). -/
def Walker.addLeave {γ : Type} (w : Walker γ) (k : NodeKind) (run : ANode → γ → γ) : Walker γ := w ++ [⟨false, k, run⟩]

/-- `NewWalker` (walker.go:81-88). -/
def newWalker {γ : Type} (fns : List (VisitFunc γ)) : Walker γ := fns.foldl (fun w f => f w) []

/-- `On...Enter`, `On...Leave` (walker.go:116-127): the handlers of the slice, in order. -/
def Walker.on {γ : Type} (w : Walker γ) (e : Event) (ctx : γ) : γ :=
  match e with
  | .enter n => (w.filter fun r => r.onEnter && r.kind == n.kind).foldl (fun c r => r.run n c) ctx
  | .leave n => (w.filter fun r => !r.onEnter && r.kind == n.kind).foldl (fun c r => r.run n c) ctx

/-- `Walk` (walker.go:91-93). -/
def Walker.walk {γ : Type} (w : Walker γ) (ctx : γ) (doc : Document) : γ :=
  (walkDocument doc).foldl (fun c e => w.on e c) ctx

end GQL
