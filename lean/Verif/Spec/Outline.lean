/-
The outline of abstract syntax: what is left when descriptions, literal values and positions in the text are taken away.  Names, types, variables, the
shape of lists and the field names of input objects stay, and so does the fact that there is a default value.
-/
import Verif.Model.Context

namespace GQL.Spec

mutual
/-- Of a value: every literal becomes `null`. -/
def bareVal : Value → Value
  | .var n => .var n
  | .list vs => .list (bareVals vs)
  | .obj fs => .obj (bareFlds fs)
  | .int _ => .null
  | .float _ => .null
  | .str _ => .null
  | .bool _ => .null
  | .null => .null
  | .enum _ => .null
/-- Of values. -/
def bareVals : List Value → List Value
  | [] => []
  | v :: vs => bareVal v :: bareVals vs
/-- Of the fields of an input object. -/
def bareFlds : List (Bytes × Value) → List (Bytes × Value)
  | [] => []
  | (n, v) :: fs => (n, bareVal v) :: bareFlds fs
end

/-- Of an argument. -/
def bareArg (a : Argument) : Argument := ⟨a.name, bareVal a.value⟩

/-- Of a directive. -/
def bareDir (d : Directive) : Directive := ⟨d.name, d.args.map bareArg, d.loc⟩

mutual
/-- Of a selection. -/
def bareSel : Selection → Selection
  | .field a n args dirs sels => .field a n (args.map bareArg) (dirs.map bareDir) (bareSels sels)
  | .spread n dirs => .spread n (dirs.map bareDir)
  | .inline c dirs sels => .inline c (dirs.map bareDir) (bareSels sels)
/-- Of selections. -/
def bareSels : List Selection → List Selection
  | [] => []
  | s :: ss => bareSel s :: bareSels ss
end

/-- Of the definition of a variable. -/
def bareVar (v : VarDef) : VarDef := ⟨v.name, v.type, v.default.map bareVal⟩

/-- Of an operation. -/
def bareOp (o : OpDef) : OpDef := ⟨o.kind, o.name, o.vars.map bareVar, o.dirs.map bareDir, bareSels o.sels⟩

/-- Of a fragment. -/
def bareFrag (d : FragDef) : FragDef := ⟨d.name, d.cond, d.dirs.map bareDir, bareSels d.sels⟩

/-- Of a schema definition or extension. -/
def bareSchemaDef (s : SchemaDef) : SchemaDef := ⟨s.dirs.map bareDir, s.ops⟩

/-- Of the definition of an input value. -/
def bareInput (i : InputVal) : InputVal := ⟨[], i.name, i.type, i.dirs.map bareDir, i.default.map bareVal⟩

/-- Of the definition of a field. -/
def bareField (d : FieldDef) : FieldDef := ⟨[], d.name, d.args.map bareInput, d.type, d.dirs.map bareDir⟩

/-- Of the definition of an enum value. -/
def bareEnum (v : EnumVal) : EnumVal := ⟨[], v.dirs.map bareDir, v.value⟩

/-- Of the definition of a type. -/
def bareType (t : TypeDef) : TypeDef :=
  { desc := [], name := t.name, kind := t.kind, ifaces := t.ifaces, dirs := t.dirs.map bareDir, fields := t.fields.map bareField,
    members := t.members, values := t.values.map bareEnum, inputs := t.inputs.map bareInput }

/-- Of the definition of a directive. -/
def bareDirective (d : DirDef) : DirDef := ⟨[], d.name, d.args.map bareInput, d.locs⟩

/-- Of the body of a definition. -/
def bareBody : Body → Body
  | .op o => .op (bareOp o)
  | .frag d => .frag (bareFrag d)
  | .schema s => .schema (bareSchemaDef s)
  | .type t => .type (bareType t)
  | .directive d => .directive (bareDirective d)
  | .schemaExt s => .schemaExt (bareSchemaDef s)
  | .typeExt t => .typeExt (bareType t)

/-- Two documents have the same outline: their definitions, in order, differ in nothing but descriptions, literal values and positions. -/
def SameOutline (d d' : Document) : Prop := d.defs.map (fun x => bareBody x.body) = d'.defs.map fun x => bareBody x.body

/-- Of a map. -/
def bareMap {α : Type} (f : α → α) (m : GMap α) : GMap α := m.map fun p => (p.1, f p.2)

/-- Of a schema. -/
def bareSchema (s : Schema) : Schema :=
  { s with definition := s.definition.map bareSchemaDef, directives := bareMap bareDirective s.directives, types := bareMap bareType s.types }

end GQL.Spec
