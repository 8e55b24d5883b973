/-
Renaming what the author of a schema names: types, fields, arguments and input fields, directives, enum values.
-/
import Verif.Spec.Schema
import Verif.Props.C40

namespace GQL.Spec

/-- New names.  An argument and a field of an input object are named alike (`input`), and so are the keys of object values. -/
structure Relabelling where
  type : Bytes → Bytes
  field : Bytes → Bytes
  input : Bytes → Bytes
  directive : Bytes → Bytes
  enum : Bytes → Bytes

/-- Two names are equally good: reserved, well-formed, and with an underscore in one of the first two places, both or neither. -/
structure SameStyle (a b : Bytes) : Prop where
  early : UnderscoreEarly a ↔ UnderscoreEarly b
  reserved : Reserved a ↔ Reserved b
  valid : ValidName a ↔ ValidName b

/-- The names that have a meaning of their own: those of scalars, of the query type if there is no schema definition, and of introspection. -/
def reservedTypes : List Bytes := builtinScalars ++ b!"Query" :: introspectionNames

/-- Different things keep different names, names stay as good as they were, and the names that have a meaning of their own stay.  (Nothing is asked of
enum values.) -/
structure Relabelling.Faithful (r : Relabelling) : Prop where
  type : ∀ a b, r.type a = r.type b → a = b
  field : ∀ a b, r.field a = r.field b → a = b
  input : ∀ a b, r.input a = r.input b → a = b
  directive : ∀ a b, r.directive a = r.directive b → a = b
  typeStyle : ∀ n, SameStyle (r.type n) n
  fieldStyle : ∀ n, SameStyle (r.field n) n
  inputStyle : ∀ n, SameStyle (r.input n) n
  directiveStyle : ∀ n, SameStyle (r.directive n) n
  noType : r.type [] = []
  types : ∀ n ∈ reservedTypes, r.type n = n
  directives : ∀ n ∈ [b!"skip", b!"include", b!"deprecated"], r.directive n = n
  inputs : ∀ n ∈ [b!"if", b!"reason"], r.input n = n

section
variable (r : Relabelling)

/-- In a type. -/
def Relabelling.ty : Ty → Ty
  | .named n b => .named (r.type n) b
  | .list t b => .list (Relabelling.ty t) b
  | .listNil b => .listNil b

mutual
/-- In a value. -/
def Relabelling.value : Value → Value
  | .enum n => .enum (r.enum n)
  | .list vs => .list (Relabelling.values vs)
  | .obj fs => .obj (Relabelling.pairs fs)
  | .var n => .var n
  | .int i => .int i
  | .float f => .float f
  | .str s => .str s
  | .bool b => .bool b
  | .null => .null
/-- In values. -/
def Relabelling.values : List Value → List Value
  | [] => []
  | v :: vs => Relabelling.value v :: Relabelling.values vs
/-- In the fields of an input object. -/
def Relabelling.pairs : List (Bytes × Value) → List (Bytes × Value)
  | [] => []
  | (n, v) :: fs => (r.input n, Relabelling.value v) :: Relabelling.pairs fs
end

/-- In an argument. -/
def Relabelling.arg (a : Argument) : Argument := ⟨r.input a.name, r.value a.value⟩

/-- In a directive. -/
def Relabelling.dir (d : Directive) : Directive := ⟨r.directive d.name, d.args.map r.arg, d.loc⟩

mutual
/-- In a selection (the alias stays). -/
def Relabelling.sel : Selection → Selection
  | .field a n args dirs sels => .field a (r.field n) (args.map r.arg) (dirs.map r.dir) (Relabelling.sels sels)
  | .spread n dirs => .spread n (dirs.map r.dir)
  | .inline c dirs sels => .inline (c.map r.ty) (dirs.map r.dir) (Relabelling.sels sels)
/-- In selections. -/
def Relabelling.sels : List Selection → List Selection
  | [] => []
  | s :: ss => Relabelling.sel s :: Relabelling.sels ss
end

/-- In the definition of a variable. -/
def Relabelling.var (v : VarDef) : VarDef := ⟨v.name, r.ty v.type, v.default.map r.value⟩

/-- In an operation. -/
def Relabelling.op (o : OpDef) : OpDef := ⟨o.kind, o.name, o.vars.map r.var, o.dirs.map r.dir, r.sels o.sels⟩

/-- In a fragment. -/
def Relabelling.frag (d : FragDef) : FragDef := ⟨d.name, r.ty d.cond, d.dirs.map r.dir, r.sels d.sels⟩

/-- In an entry of a schema definition. -/
def Relabelling.opType (o : OpTypeDef) : OpTypeDef := ⟨r.ty o.type, o.op⟩

/-- In a schema definition or extension. -/
def Relabelling.schemaDef (s : SchemaDef) : SchemaDef := ⟨s.dirs.map r.dir, s.ops.map r.opType⟩

/-- In the definition of an argument or input field. -/
def Relabelling.inputVal (i : InputVal) : InputVal := ⟨i.desc, r.input i.name, r.ty i.type, i.dirs.map r.dir, i.default.map r.value⟩

/-- In the definition of a field. -/
def Relabelling.fieldDef (d : FieldDef) : FieldDef := ⟨d.desc, r.field d.name, d.args.map r.inputVal, r.ty d.type, d.dirs.map r.dir⟩

/-- In the definition of an enum value. -/
def Relabelling.enumVal (v : EnumVal) : EnumVal := ⟨v.desc, v.dirs.map r.dir, r.enum v.value⟩

/-- In the definition of a type. -/
def Relabelling.typeDef (t : TypeDef) : TypeDef :=
  { desc := t.desc, name := r.type t.name, kind := t.kind, ifaces := t.ifaces.map r.ty, dirs := t.dirs.map r.dir, fields := t.fields.map r.fieldDef,
    members := t.members.map r.ty, values := t.values.map r.enumVal, inputs := t.inputs.map r.inputVal }

/-- In the definition of a directive. -/
def Relabelling.dirDef (d : DirDef) : DirDef := ⟨d.desc, r.directive d.name, d.args.map r.inputVal, d.locs⟩

/-- In the body of a definition. -/
def Relabelling.body : Body → Body
  | .op o => .op (r.op o)
  | .frag d => .frag (r.frag d)
  | .schema s => .schema (r.schemaDef s)
  | .type t => .type (r.typeDef t)
  | .directive d => .directive (r.dirDef d)
  | .schemaExt s => .schemaExt (r.schemaDef s)
  | .typeExt t => .typeExt (r.typeDef t)

/-- In a schema. -/
def Relabelling.schema (s : Schema) : Schema :=
  { s with
    definition := s.definition.map r.schemaDef
    queryType := s.queryType.map r.ty
    mutationType := s.mutationType.map r.ty
    subscriptionType := s.subscriptionType.map r.ty
    directives := s.directives.map fun p => (r.directive p.1, r.dirDef p.2)
    types := s.types.map fun p => (r.type p.1, r.typeDef p.2) }

/-- The definitions of `e` are those of `d`, in order, with the new names. -/
def Relabelled (d e : Document) : Prop := e.defs.map (·.body) = d.defs.map fun x => r.body x.body

end

end GQL.Spec
