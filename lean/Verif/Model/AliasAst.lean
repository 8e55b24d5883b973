/-
The document of ast/ast.go with strings that are windows on the input buffer (`Str`, Model/Alias): the types of
Model/Ast once more, with `Str` for `Bytes`, and what each of them reads when `buf` is in the buffer.
-/
import Verif.Model.Alias
import Verif.Model.Ast

namespace GQL

/-- `Type` (ast/ast.go:312-317). -/
inductive ATy where
  | named (name : Str) (nonNull : Bool)
  | list (item : ATy) (nonNull : Bool)
  | listNil (nonNull : Bool)
  deriving Repr, Inhabited

/-- `Value` (ast/ast.go:263-274) and `ObjectField` (276-279). -/
inductive AValue where
  | var (name : Str)
  | int (i : Int)
  | float (bits : Nat)
  | str (s : Str)
  | bool (b : Bool)
  | null
  | enum (name : Str)
  | list (vs : List AValue)
  | obj (fs : List (Str × AValue))
  deriving Repr, Inhabited

/-- `Argument` (ast/ast.go:207-210). -/
structure AArgument where
  name : Str
  value : AValue
  deriving Repr, Inhabited

/-- `Directive` (ast/ast.go:338-342). -/
structure ADirective where
  name : Str
  args : List AArgument
  loc : DirLoc
  deriving Repr, Inhabited

/-- `Selection` (ast/ast.go:191-201). -/
inductive ASelection where
  | field (alias name : Str) (args : List AArgument) (dirs : List ADirective) (sels : List ASelection)
  | spread (name : Str) (dirs : List ADirective)
  | inline (cond : Option ATy) (dirs : List ADirective) (sels : List ASelection)
  deriving Repr, Inhabited

/-- `VariableDefinition` (ast/ast.go:284-288). -/
structure AVarDef where
  name : Str
  type : ATy
  default : Option AValue
  deriving Repr, Inhabited

/-- `OperationDefinition` (ast/ast.go:158-164). -/
structure AOpDef where
  kind : OpKind
  name : Str
  vars : List AVarDef
  dirs : List ADirective
  sels : List ASelection
  deriving Repr, Inhabited

/-- `FragmentDefinition` (ast/ast.go:129-134). -/
structure AFragDef where
  name : Str
  cond : ATy
  dirs : List ADirective
  sels : List ASelection
  deriving Repr, Inhabited

/-- `OperationTypeDefinition` (ast/ast.go:408-411). -/
structure AOpTypeDef where
  type : ATy
  op : OpKind
  deriving Repr, Inhabited

/-- `SchemaDefinition` and `SchemaExtension` (ast/ast.go:397-406). -/
structure ASchemaDef where
  dirs : List ADirective
  ops : List AOpTypeDef
  deriving Repr, Inhabited

/-- `InputValueDefinition` (ast/ast.go:598-604). -/
structure AInputVal where
  desc : Str
  name : Str
  type : ATy
  dirs : List ADirective
  default : Option AValue
  deriving Repr, Inhabited

/-- `FieldDefinition` (ast/ast.go:527-533). -/
structure AFieldDef where
  desc : Str
  name : Str
  args : List AInputVal
  type : ATy
  dirs : List ADirective
  deriving Repr, Inhabited

/-- `EnumValueDefinition` (ast/ast.go:535-539). -/
structure AEnumVal where
  desc : Str
  dirs : List ADirective
  value : Str
  deriving Repr, Inhabited

/-- `TypeDefinition` (ast/ast.go:448-458) and `TypeExtension` (554-563); a string that is not set is `""`. -/
structure ATypeDef where
  desc : Str := .own []
  name : Str
  kind : TypeKind
  ifaces : List ATy := []
  dirs : List ADirective := []
  fields : List AFieldDef := []
  members : List ATy := []
  values : List AEnumVal := []
  inputs : List AInputVal := []
  deriving Repr, Inhabited

/-- `DirectiveDefinition` (ast/ast.go:681-686). -/
structure ADirDef where
  desc : Str
  name : Str
  args : List AInputVal
  locs : Nat
  deriving Repr, Inhabited

/-- `ExecutableDefinition`, `TypeSystemDefinition` and `TypeSystemExtension` with their kinds
(ast/ast.go:55-85, 95-116, 347-391). -/
inductive ABody where
  | op (o : AOpDef)
  | frag (f : AFragDef)
  | schema (s : ASchemaDef)
  | type (t : ATypeDef)
  | directive (d : ADirDef)
  | schemaExt (s : ASchemaDef)
  | typeExt (t : ATypeDef)
  deriving Repr, Inhabited

/-- `Definition` (ast/ast.go:79-85). -/
structure ADefinition where
  loc : Location
  body : ABody
  deriving Repr, Inhabited

/-- `Document` (ast/ast.go:44-53): the definitions, and a document with the same counters. -/
structure ADocument where
  defs : List ADefinition
  counters : Document

section
variable (buf : Bytes)

/-- The type as it reads now. -/
def ATy.read : ATy → Ty
  | .named n b => .named (n.value buf) b
  | .list t b => .list t.read b
  | .listNil b => .listNil b

mutual
/-- The value as it reads now. -/
def AValue.read : AValue → Value
  | .var n => .var (n.value buf)
  | .int i => .int i
  | .float f => .float f
  | .str s => .str (s.value buf)
  | .bool b => .bool b
  | .null => .null
  | .enum n => .enum (n.value buf)
  | .list vs => .list (AValue.readL vs)
  | .obj fs => .obj (AValue.readF fs)
/-- Values as they read now. -/
def AValue.readL : List AValue → List Value
  | [] => []
  | v :: vs => AValue.read v :: AValue.readL vs
/-- The fields of an object as they read now. -/
def AValue.readF : List (Str × AValue) → List (Bytes × Value)
  | [] => []
  | (n, v) :: fs => (n.value buf, AValue.read v) :: AValue.readF fs
end

/-- The argument as it reads now. -/
def AArgument.read (a : AArgument) : Argument := ⟨a.name.value buf, a.value.read buf⟩

/-- The directive as it reads now. -/
def ADirective.read (d : ADirective) : Directive := ⟨d.name.value buf, d.args.map (AArgument.read buf), d.loc⟩

mutual
/-- The selection as it reads now. -/
def ASelection.read : ASelection → Selection
  | .field a n args dirs sels =>
    .field (a.value buf) (n.value buf) (args.map (AArgument.read buf)) (dirs.map (ADirective.read buf)) (ASelection.readL sels)
  | .spread n dirs => .spread (n.value buf) (dirs.map (ADirective.read buf))
  | .inline c dirs sels => .inline (c.map (ATy.read buf)) (dirs.map (ADirective.read buf)) (ASelection.readL sels)
/-- Selections as they read now. -/
def ASelection.readL : List ASelection → List Selection
  | [] => []
  | s :: ss => ASelection.read s :: ASelection.readL ss
end

/-- The variable definition as it reads now. -/
def AVarDef.read (v : AVarDef) : VarDef := ⟨v.name.value buf, v.type.read buf, v.default.map (AValue.read buf)⟩

/-- The operation as it reads now. -/
def AOpDef.read (o : AOpDef) : OpDef :=
  ⟨o.kind, o.name.value buf, o.vars.map (AVarDef.read buf), o.dirs.map (ADirective.read buf), o.sels.map (ASelection.read buf)⟩

/-- The fragment as it reads now. -/
def AFragDef.read (f : AFragDef) : FragDef :=
  ⟨f.name.value buf, f.cond.read buf, f.dirs.map (ADirective.read buf), f.sels.map (ASelection.read buf)⟩

/-- The root operation type as it reads now. -/
def AOpTypeDef.read (o : AOpTypeDef) : OpTypeDef := ⟨o.type.read buf, o.op⟩

/-- The schema as it reads now. -/
def ASchemaDef.read (s : ASchemaDef) : SchemaDef := ⟨s.dirs.map (ADirective.read buf), s.ops.map (AOpTypeDef.read buf)⟩

/-- The argument definition as it reads now. -/
def AInputVal.read (i : AInputVal) : InputVal :=
  ⟨i.desc.value buf, i.name.value buf, i.type.read buf, i.dirs.map (ADirective.read buf), i.default.map (AValue.read buf)⟩

/-- The field definition as it reads now. -/
def AFieldDef.read (f : AFieldDef) : FieldDef :=
  ⟨f.desc.value buf, f.name.value buf, f.args.map (AInputVal.read buf), f.type.read buf, f.dirs.map (ADirective.read buf)⟩

/-- The enum value as it reads now. -/
def AEnumVal.read (e : AEnumVal) : EnumVal := ⟨e.desc.value buf, e.dirs.map (ADirective.read buf), e.value.value buf⟩

/-- The type definition as it reads now. -/
def ATypeDef.read (t : ATypeDef) : TypeDef :=
  ⟨t.desc.value buf, t.name.value buf, t.kind, t.ifaces.map (ATy.read buf), t.dirs.map (ADirective.read buf),
   t.fields.map (AFieldDef.read buf), t.members.map (ATy.read buf), t.values.map (AEnumVal.read buf), t.inputs.map (AInputVal.read buf)⟩

/-- The directive definition as it reads now. -/
def ADirDef.read (d : ADirDef) : DirDef := ⟨d.desc.value buf, d.name.value buf, d.args.map (AInputVal.read buf), d.locs⟩

/-- The definition's body as it reads now. -/
def ABody.read : ABody → Body
  | .op o => .op (o.read buf)
  | .frag f => .frag (f.read buf)
  | .schema s => .schema (s.read buf)
  | .type t => .type (t.read buf)
  | .directive d => .directive (d.read buf)
  | .schemaExt s => .schemaExt (s.read buf)
  | .typeExt t => .typeExt (t.read buf)

/-- The definition as it reads now. -/
def ADefinition.read (d : ADefinition) : Definition := ⟨d.loc, d.body.read buf⟩

/-- The document as it reads now. -/
def ADocument.read (d : ADocument) : Document := { d.counters with defs := d.defs.map (ADefinition.read buf) }

end

end GQL
