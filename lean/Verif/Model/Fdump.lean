/-
Model of `Fdump` of ast/dumper.go for any writer.

Model/Dumper says which text `Sdump` returns.  Here a dump method is a program that calls the writer: `io.WriteString(d.w, s)` calls the writer's
`WriteString` or `Write` with `s`, and the code looks at neither of its results.  A program gives whether it panicked (the nil dereference in `dumpType`)
and the state that the writer is in then.  A writer that panics itself is left out.  The pure functions (escaping, indentation) are those of Model/Dumper.
-/
import Verif.Model.Dumper
import Verif.Model.Errors
import Verif.Spec.Writer

namespace GQL.Fd

open GQL.Spec (Writer buffer)

/-- Code that writes: whether it panics, and the state of the writer then. -/
abbrev Prog (σ : Type) := σ → Bool × σ

/-- First one, then, unless it panicked, the other. -/
def seq {σ : Type} (p q : Prog σ) : Prog σ := fun s =>
  match p s with
  | (true, s') => (true, s')
  | (false, s') => q s'

@[inherit_doc] infixr:67 " ▹ " => seq

/-- `io.WriteString(d.w, x)`, whose results (the number of bytes and the error) are dropped. -/
def put {σ : Type} (w : Writer σ) (x : Bytes) : Prog σ := fun s => (false, (w.write s x).1)

/-- Nothing. -/
def skip {σ : Type} : Prog σ := fun s => (false, s)

/-- A nil dereference. -/
def crash {σ : Type} : Prog σ := fun s => (true, s)

/-- `l.ForEach(f)` with the index of the first element. -/
def forEachFrom {σ α : Type} (f : α → Nat → Prog σ) : Nat → List α → Prog σ
  | _, [] => skip
  | i, a :: as => f a i ▹ forEachFrom f (i + 1) as

/-- `l.ForEach(f)` (generated, Model/Heap), and `for i, x := range l`. -/
def forEach {σ α : Type} (f : α → Nat → Prog σ) (l : List α) : Prog σ := forEachFrom f 0 l

section
variable {σ : Type} (fmtG : Nat → Bytes) (w : Writer σ)

/-- A string value (ast/dumper.go:267-298).  The lines of a block string are put together in a `bytes.Buffer` and written at once. -/
def dumpString (depth : Nat) (s : Bytes) : Prog σ :=
  if s.contains 10 then
    let indent := indentOf depth
    let lines := splitOn 10 (escapeBlock s)
    put w b!"\"\"\"" ▹ put w b!"\n" ▹ put w (indentLines indent lines.length 0 lines) ▹ put w b!"\n" ▹ put w indent ▹ put w b!"\"\"\""
  else put w b!"\"" ▹ put w (escapeString s) ▹ put w b!"\""

mutual
/-- `dumpValue` (ast/dumper.go:258-338). -/
def dumpValue (depth : Nat) : Value → Prog σ
  | .var n => put w b!"$" ▹ put w n
  | .int i => put w (itoa i)
  | .float f => put w (fmtG f)
  | .str s => dumpString w depth s
  | .bool b => if b then put w b!"true" else put w b!"false"
  | .null => put w b!"null"
  | .enum n => put w n
  | .list vs => put w b!"[" ▹ dumpValues depth vs.length 0 vs ▹ put w b!"]"
  | .obj fs => put w b!"{ " ▹ dumpObjFields depth fs.length 0 fs ▹ put w b!" }"
/-- The loop over list values (ast/dumper.go:313-319): `vals` values, the first of which has index `i`. -/
def dumpValues (depth vals : Nat) : Nat → List Value → Prog σ
  | _, [] => skip
  | i, v :: vs => dumpValue depth v ▹ (if i < vals - 1 then put w b!", " else skip) ▹ dumpValues depth vals (i + 1) vs
/-- The loop over object fields (ast/dumper.go:325-334). -/
def dumpObjFields (depth vals : Nat) : Nat → List (Bytes × Value) → Prog σ
  | _, [] => skip
  | i, (n, v) :: fs => put w n ▹ put w b!": " ▹ dumpValue depth v ▹ (if i < vals - 1 then put w b!", " else skip) ▹
      dumpObjFields depth vals (i + 1) fs
end

/-- `dumpArgument` (ast/dumper.go:191-196). -/
def dumpArgument (depth : Nat) (a : Argument) : Prog σ := put w a.name ▹ put w b!": " ▹ dumpValue fmtG w depth a.value

/-- `dumpArguments` (ast/dumper.go:173-189). -/
def dumpArguments (depth : Nat) (args : List Argument) : Prog σ :=
  if args.length = 0 then skip
  else put w b!"(" ▹
    forEach (fun a i => dumpArgument fmtG w depth a ▹ (if i < args.length - 1 then put w b!", " else skip)) args ▹ put w b!")"

/-- `dumpDirective` (ast/dumper.go:398-403). -/
def dumpDirective (depth : Nat) (d : Directive) : Prog σ := put w b!"@" ▹ put w d.name ▹ dumpArguments fmtG w depth d.args

/-- `dumpDirectives` (ast/dumper.go:388-396). -/
def dumpDirectives (depth : Nat) (ds : List Directive) : Prog σ :=
  forEach (fun d i => (if i ≠ 0 then put w b!" " else skip) ▹ dumpDirective fmtG w depth d) ds

/-- `if x.Directives != nil { " "; d.dumpDirectives(x.Directives) }`, which stands in most methods. -/
def dumpOptDirectives (depth : Nat) (ds : List Directive) : Prog σ :=
  if ds ≠ [] then put w b!" " ▹ dumpDirectives fmtG w depth ds else skip

mutual
/-- `dumpSelection` (ast/dumper.go:131-144) with `dumpFieldSelection` (147-170), `dumpFragmentSpread` (199-211), `dumpInlineFragment` (214-235).  `depth` is the depth before
the increment. -/
def dumpSelection (depth : Nat) : Selection → Prog σ
  | .field alias name args dirs sels =>
    put w (indentOf (depth + 1)) ▹ (if alias ≠ [] then put w alias ▹ put w b!": " else skip) ▹ put w name ▹
      dumpArguments fmtG w (depth + 1) args ▹ dumpOptDirectives fmtG w (depth + 1) dirs ▹
      (if sels.isEmpty then skip else put w b!" " ▹ put w b!"{\n" ▹ dumpSelectionList (depth + 1) sels ▹ put w (indentOf (depth + 1)) ▹ put w b!"}")
  | .spread name dirs => put w (indentOf (depth + 1)) ▹ put w b!"..." ▹ put w name ▹ dumpOptDirectives fmtG w (depth + 1) dirs
  | .inline cond dirs sels =>
    put w (indentOf (depth + 1)) ▹ put w b!"..." ▹
      (match cond with
        | some t => put w b!" " ▹ put w b!"on" ▹ put w b!" " ▹ put w t.rawName
        | none => skip) ▹
      dumpOptDirectives fmtG w (depth + 1) dirs ▹ put w b!" " ▹
      (put w b!"{\n" ▹ dumpSelectionList (depth + 1) sels ▹ put w (indentOf (depth + 1)) ▹ put w b!"}")
/-- The loop of `dumpSelections` (ast/dumper.go:122-125). -/
def dumpSelectionList (depth : Nat) : List Selection → Prog σ
  | [] => skip
  | s :: ss => dumpSelection depth s ▹ put w b!"\n" ▹ dumpSelectionList depth ss
end

/-- `dumpSelections` (ast/dumper.go:119-129); written out in `dumpSelection`, because of the recursion. -/
def dumpSelections (depth : Nat) (sels : List Selection) : Prog σ :=
  put w b!"{\n" ▹ dumpSelectionList fmtG w depth sels ▹ put w (indentOf depth) ▹ put w b!"}"

/-- `dumpType` (ast/dumper.go:372-385). -/
def dumpType : Ty → Prog σ
  | .named n b => put w n ▹ (if b then put w b!"!" else skip)
  | .list t b => (put w b!"[" ▹ dumpType t ▹ put w b!"]") ▹ (if b then put w b!"!" else skip)
  | .listNil _ => crash

/-- `dumpVariableDefinition` (ast/dumper.go:357-369). -/
def dumpVariableDefinition (depth : Nat) (v : VarDef) : Prog σ :=
  put w b!"$" ▹ put w v.name ▹ put w b!": " ▹ dumpType w v.type ▹
    (match v.default with
      | some x => put w b!" = " ▹ dumpValue fmtG w depth x
      | none => skip)

/-- `dumpVariableDefinitions` (ast/dumper.go:341-355). -/
def dumpVariableDefinitions (depth : Nat) (vs : List VarDef) : Prog σ :=
  put w b!"(" ▹
    forEach (fun v i => dumpVariableDefinition fmtG w depth v ▹ (if i < vs.length - 1 then put w b!", " else skip)) vs ▹ put w b!")"

/-- `dumpOperationDefinition` (ast/dumper.go:81-116); the depth is 0 here and in all definitions. -/
def dumpOperationDefinition (defs : Nat) (o : OpDef) : Prog σ :=
  let shorthand := defs == 1
  (match o.kind with
    | .query => if !shorthand || o.name ≠ [] then put w b!"query " else skip
    | .mutation => put w b!"mutation "
    | .subscription => put w b!"subscription ") ▹
  (if o.name ≠ [] then put w o.name else skip) ▹
  (if o.vars ≠ [] then dumpVariableDefinitions fmtG w 0 o.vars else skip) ▹
  dumpOptDirectives fmtG w 0 o.dirs ▹
  (if !shorthand then put w b!" " else skip) ▹
  dumpSelections fmtG w 0 o.sels

/-- `dumpFragmentDefinition` (ast/dumper.go:237-255). -/
def dumpFragmentDefinition (f : FragDef) : Prog σ :=
  put w b!"fragment" ▹ put w b!" " ▹ put w f.name ▹ put w b!" " ▹ put w b!"on" ▹ put w b!" " ▹ put w f.cond.rawName ▹
    dumpOptDirectives fmtG w 0 f.dirs ▹ put w b!" " ▹ dumpSelections fmtG w 0 f.sels

/-- `dumpOperationTypeDefinition` (ast/dumper.go:449-457); the depth is 1 there. -/
def dumpOperationTypeDefinition (o : OpTypeDef) : Prog σ :=
  put w (indentOf 1) ▹ put w o.op.str ▹ put w b!": " ▹ dumpType w o.type

/-- The braces of `dumpSchemaDefinition` and `dumpSchemaExtension` (ast/dumper.go:436-445, 469-478). -/
def dumpOpTypes (ops : List OpTypeDef) : Prog σ :=
  put w b!" {\n" ▹ forEach (fun o _ => dumpOperationTypeDefinition w o ▹ put w b!"\n") ops ▹ put w b!"}"

/-- `dumpSchemaDefinition` (ast/dumper.go:428-446). -/
def dumpSchemaDefinition (s : SchemaDef) : Prog σ := put w b!"schema" ▹ dumpOptDirectives fmtG w 0 s.dirs ▹ dumpOpTypes w s.ops

/-- `dumpSchemaExtension` (ast/dumper.go:460-480). -/
def dumpSchemaExtension (s : SchemaDef) : Prog σ :=
  put w b!"extend schema" ▹ dumpOptDirectives fmtG w 0 s.dirs ▹ (if s.ops ≠ [] then dumpOpTypes w s.ops else skip)

/-- `dumpDescription` (ast/dumper.go:483-489). -/
def dumpDescription (desc : Bytes) : Prog σ :=
  if desc ≠ [] then put w b!"\"\"\"\n" ▹ put w desc ▹ put w b!"\n\"\"\"\n" else skip

/-- `dumpInputValueDefinition` (ast/dumper.go:657-676). -/
def dumpInputValueDefinition (v : InputVal) : Prog σ :=
  dumpDescription w v.desc ▹ put w v.name ▹ put w b!": " ▹ put w v.type.rawName ▹
    (if v.type.rawNonNull then put w b!"!" else skip) ▹
    (match v.default with
      | some x => put w b!" = " ▹ dumpValue fmtG w 0 x
      | none => skip) ▹
    dumpOptDirectives fmtG w 0 v.dirs

/-- `dumpArgumentsDefinition` (ast/dumper.go:643-654). -/
def dumpArgumentsDefinition (as : List InputVal) : Prog σ :=
  put w b!"(" ▹ forEach (fun v i => (if i > 0 then put w b!", " else skip) ▹ dumpInputValueDefinition fmtG w v) as ▹ put w b!")"

/-- `if x.ArgumentsDefinition != nil { d.dumpArgumentsDefinition(x.ArgumentsDefinition) }`. -/
def dumpOptArgsDef (as : List InputVal) : Prog σ := if as ≠ [] then dumpArgumentsDefinition fmtG w as else skip

/-- `dumpFieldDefinition` (ast/dumper.go:620-640). -/
def dumpFieldDefinition (f : FieldDef) : Prog σ :=
  dumpDescription w f.desc ▹ put w indentation ▹ put w f.name ▹ dumpOptArgsDef fmtG w f.args ▹ put w b!": " ▹ put w f.type.rawName ▹
    (if f.type.rawNonNull then put w b!"!" else skip) ▹ dumpOptDirectives fmtG w 0 f.dirs

/-- `dumpFieldsDefinition` (ast/dumper.go:609-618). -/
def dumpFieldsDefinition (fs : List FieldDef) : Prog σ :=
  put w b!"{\n" ▹ forEach (fun f _ => dumpFieldDefinition fmtG w f ▹ put w b!"\n") fs ▹ put w b!"}"

/-- Types between separators: the second half of `dumpImplementsInterfaces` and of `dumpUnionMemberTypes` (ast/dumper.go:601-606, 774-779). -/
def dumpTypeNames (sep : Bytes) (ts : List Ty) : Prog σ :=
  forEach (fun t i => put w t.rawName ▹ (if i < ts.length - 1 then put w sep else skip)) ts

/-- `dumpImplementsInterfaces` (ast/dumper.go:584-607). -/
def dumpImplementsInterfaces (is : List Ty) (hasFields : Bool) : Prog σ :=
  let sep := if is.length < 3 then b!" & " else b!"\n " ++ ((if hasFields then indentation else []) ++ b!" & ")
  put w b!"implements" ▹ (if is.length < 3 then put w b!" " else put w sep) ▹ dumpTypeNames w sep is

/-- `dumpUnionMemberTypes` (ast/dumper.go:761-780). -/
def dumpUnionMemberTypes (ms : List Ty) : Prog σ :=
  let sep := if ms.length < 3 then b!" | " else b!"\n " ++ b!" | "
  put w b!"=" ▹ (if ms.length < 3 then put w b!" " else put w sep) ▹ dumpTypeNames w sep ms

/-- `dumpEnumValueDefinition` (ast/dumper.go:827-837). -/
def dumpEnumValueDefinition (v : EnumVal) : Prog σ :=
  dumpDescription w v.desc ▹ put w indentation ▹ put w v.value ▹ dumpOptDirectives fmtG w 0 v.dirs

/-- `dumpEnumValuesDefinition` (ast/dumper.go:816-825). -/
def dumpEnumValuesDefinition (vs : List EnumVal) : Prog σ :=
  put w b!"{\n" ▹ forEach (fun v _ => dumpEnumValueDefinition fmtG w v ▹ put w b!"\n") vs ▹ put w b!"}"

/-- `dumpInputFieldsDefinition` (ast/dumper.go:873-883). -/
def dumpInputFieldsDefinition (vs : List InputVal) : Prog σ :=
  put w b!"{\n" ▹ forEach (fun v _ => put w indentation ▹ dumpInputValueDefinition fmtG w v ▹ put w b!"\n") vs ▹ put w b!"}"

/-- `if x != nil { " "; f(x) }`. -/
def dumpOpt {α : Type} (f : List α → Prog σ) (l : List α) : Prog σ := if l ≠ [] then put w b!" " ▹ f l else skip

/-- The name and what follows it: `dumpTypeDefinitionScalar` (ast/dumper.go:528-538), `-Object` (552-572), `-Interface` (700-715), `-Union` (734-749),
`-Enum` (799-814), `-InputObject` (856-871), and the same of the extensions: `dumpScalarTypeExtension` (541-549), `dumpObjectTypeExtension` (679-697), `dumpInterfaceTypeExtension` (718-731),
`dumpUnionTypeExtension` (783-796), `dumpEnumTypeExtension` (840-853), `dumpInputObjectTypeExtension` (886-899).
`pre` is `extend ` for an extension, whose first write is the literal `extend scalar ` and so on. -/
def dumpTypeBody (pre : Bytes) (t : TypeDef) : Prog σ :=
  match t.kind with
  | .scalar => put w (pre ++ b!"scalar ") ▹ put w t.name ▹ dumpOptDirectives fmtG w 0 t.dirs
  | .object => put w (pre ++ b!"type ") ▹ put w t.name ▹ dumpOpt w (fun is => dumpImplementsInterfaces w is (!t.fields.isEmpty)) t.ifaces ▹
      dumpOptDirectives fmtG w 0 t.dirs ▹ dumpOpt w (dumpFieldsDefinition fmtG w) t.fields
  | .interface => put w (pre ++ b!"interface ") ▹ put w t.name ▹ dumpOptDirectives fmtG w 0 t.dirs ▹ dumpOpt w (dumpFieldsDefinition fmtG w) t.fields
  | .union => put w (pre ++ b!"union ") ▹ put w t.name ▹ dumpOptDirectives fmtG w 0 t.dirs ▹ dumpOpt w (dumpUnionMemberTypes w) t.members
  | .enum => put w (pre ++ b!"enum ") ▹ put w t.name ▹ dumpOptDirectives fmtG w 0 t.dirs ▹ dumpOpt w (dumpEnumValuesDefinition fmtG w) t.values
  | .inputObject => put w (pre ++ b!"input ") ▹ put w t.name ▹ dumpOptDirectives fmtG w 0 t.dirs ▹ dumpOpt w (dumpInputFieldsDefinition fmtG w) t.inputs

/-- `dumpTypeDefinition` (ast/dumper.go:492-507). -/
def dumpTypeDefinition (t : TypeDef) : Prog σ := dumpDescription w t.desc ▹ dumpTypeBody fmtG w [] t

/-- `dumpTypeExtension` (ast/dumper.go:510-525). -/
def dumpTypeExtension (t : TypeDef) : Prog σ := dumpTypeBody fmtG w b!"extend " t

/-- `dumpDirectiveLocations` (ast/dumper.go:927-956). -/
def dumpDirectiveLocations (locs : Nat) : Prog σ :=
  let ns := locNames locs
  let sep := if ns.length < 3 then b!" | " else b!"\n " ++ b!" | "
  (if ns.length < 3 then put w b!" " else put w sep) ▹
    forEach (fun n i => put w n ▹ (if i < ns.length - 1 then put w sep else skip)) ns

/-- `dumpDirectiveDefinition` (ast/dumper.go:903-915). -/
def dumpDirectiveDefinition (d : DirDef) : Prog σ :=
  dumpDescription w d.desc ▹ put w b!"directive @" ▹ put w d.name ▹ dumpOptArgsDef fmtG w d.args ▹ put w b!" on" ▹ dumpDirectiveLocations w d.locs

/-- `dumpDefinition` (ast/dumper.go:60-69) with `dumpExecutableDefinition` (71-78), `dumpTypeSystemDefinition` (406-415), `dumpTypeSystemExtension` (418-425). -/
def dumpDefinition (defs : Nat) : Body → Prog σ
  | .op o => dumpOperationDefinition fmtG w defs o
  | .frag f => dumpFragmentDefinition fmtG w f
  | .schema s => dumpSchemaDefinition fmtG w s
  | .type t => dumpTypeDefinition fmtG w t
  | .directive d => dumpDirectiveDefinition fmtG w d
  | .schemaExt s => dumpSchemaExtension fmtG w s
  | .typeExt t => dumpTypeExtension fmtG w t

/-- `dumpDefinitions` (ast/dumper.go:46-58). -/
def dumpDefinitions (defs : Nat) (ds : List Definition) : Prog σ :=
  forEach (fun d i => (if i ≠ 0 then put w b!"\n" else skip) ▹ dumpDefinition fmtG w defs d.body ▹ (if i < defs - 1 then put w b!"\n" else skip)) ds

/-- `Fdump` (ast/dumper.go:14-17). -/
def fdump (doc : Document) : Prog σ := dumpDefinitions fmtG w doc.defs.length doc.defs

end

/-- `Sdump` (ast/dumper.go:27-33): `Fdump` to a `bytes.Buffer`. -/
def sdump (fmtG : Nat → Bytes) (doc : Document) : Bool × Bytes := fdump fmtG buffer doc []

end GQL.Fd
