/-
The contents of the string literals and descriptions in abstract syntax, replaced by a function.
-/
import Verif.Model.Ast

namespace GQL.Spec

mutual
/-- In a value. -/
def strVal (f : Bytes → Bytes) : Value → Value
  | .str s => .str (f s)
  | .list vs => .list (strVals f vs)
  | .obj fs => .obj (strFlds f fs)
  | .var n => .var n
  | .int i => .int i
  | .float b => .float b
  | .bool b => .bool b
  | .null => .null
  | .enum n => .enum n
/-- In values. -/
def strVals (f : Bytes → Bytes) : List Value → List Value
  | [] => []
  | v :: vs => strVal f v :: strVals f vs
/-- In the fields of an input object. -/
def strFlds (f : Bytes → Bytes) : List (Bytes × Value) → List (Bytes × Value)
  | [] => []
  | (n, v) :: fs => (n, strVal f v) :: strFlds f fs
end

/-- In an argument. -/
def strArg (f : Bytes → Bytes) (a : Argument) : Argument := ⟨a.name, strVal f a.value⟩

/-- In a directive. -/
def strDir (f : Bytes → Bytes) (d : Directive) : Directive := ⟨d.name, d.args.map (strArg f), d.loc⟩

mutual
/-- In a selection. -/
def strSel (f : Bytes → Bytes) : Selection → Selection
  | .field a n args dirs sels => .field a n (args.map (strArg f)) (dirs.map (strDir f)) (strSels f sels)
  | .spread n dirs => .spread n (dirs.map (strDir f))
  | .inline c dirs sels => .inline c (dirs.map (strDir f)) (strSels f sels)
/-- In selections. -/
def strSels (f : Bytes → Bytes) : List Selection → List Selection
  | [] => []
  | s :: ss => strSel f s :: strSels f ss
end

/-- In the definition of a variable. -/
def strVar (f : Bytes → Bytes) (v : VarDef) : VarDef := ⟨v.name, v.type, v.default.map (strVal f)⟩

/-- In an operation. -/
def strOp (f : Bytes → Bytes) (o : OpDef) : OpDef :=
  ⟨o.kind, o.name, o.vars.map (strVar f), o.dirs.map (strDir f), strSels f o.sels⟩

/-- In a fragment. -/
def strFrag (f : Bytes → Bytes) (d : FragDef) : FragDef := ⟨d.name, d.cond, d.dirs.map (strDir f), strSels f d.sels⟩

/-- In a schema definition. -/
def strSchema (f : Bytes → Bytes) (s : SchemaDef) : SchemaDef := ⟨s.dirs.map (strDir f), s.ops⟩

/-- In the definition of an input value. -/
def strInput (f : Bytes → Bytes) (i : InputVal) : InputVal :=
  ⟨f i.desc, i.name, i.type, i.dirs.map (strDir f), i.default.map (strVal f)⟩

/-- In the definition of a field. -/
def strField (f : Bytes → Bytes) (d : FieldDef) : FieldDef :=
  ⟨f d.desc, d.name, d.args.map (strInput f), d.type, d.dirs.map (strDir f)⟩

/-- In the definition of an enum value. -/
def strEnum (f : Bytes → Bytes) (v : EnumVal) : EnumVal := ⟨f v.desc, v.dirs.map (strDir f), v.value⟩

/-- In the definition of a type. -/
def strType (f : Bytes → Bytes) (t : TypeDef) : TypeDef :=
  { desc := f t.desc, name := t.name, kind := t.kind, ifaces := t.ifaces, dirs := t.dirs.map (strDir f), fields := t.fields.map (strField f),
    members := t.members, values := t.values.map (strEnum f), inputs := t.inputs.map (strInput f) }

/-- In the definition of a directive. -/
def strDirective (f : Bytes → Bytes) (d : DirDef) : DirDef := ⟨f d.desc, d.name, d.args.map (strInput f), d.locs⟩

/-- In the body of a definition. -/
def strBody (f : Bytes → Bytes) : Body → Body
  | .op o => .op (strOp f o)
  | .frag d => .frag (strFrag f d)
  | .schema s => .schema (strSchema f s)
  | .type t => .type (strType f t)
  | .directive d => .directive (strDirective f d)
  | .schemaExt s => .schemaExt (strSchema f s)
  | .typeExt t => .typeExt (strType f t)

/-- In a definition. -/
def strDef (f : Bytes → Bytes) (d : Definition) : Definition := ⟨d.loc, strBody f d.body⟩

end GQL.Spec
