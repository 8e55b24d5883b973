/-
Model of ast/dumper.go.

`d.w` is the buffer of `Sdump`; a dump method is modelled by the bytes it appends to it.  The only panic is the nil dereference of
`*astType.ListType` in `dumpType`.  `d.depth` and `d.defs` are parameters.  `fmtG` is `fmt.Sprintf("%g", x)` of the float with the given 64-bit
pattern (standard library, a parameter).  The lists are Go linked lists or slices; `ForEach` (generated code, Model/Heap) calls its argument with each element and its index, from 0.
-/
import Verif.Model.Ast
import Verif.Model.Utf8
import Verif.Model.Lexer
import Verif.Model.Json

namespace GQL

/-- First one output, then the other. -/
def seqOut (a b : Out Bytes) : Out Bytes := a.bind fun x => b.bind fun y => .ret (x ++ y)

@[inherit_doc] infixr:67 " +++ " => seqOut

/-- `io.WriteString(d.w, s)`. -/
abbrev write (s : Bytes) : Out Bytes := .ret s

/-- Output of nothing. -/
abbrev skipOut : Out Bytes := .ret []

/-- `l.ForEach(f)` with the index of the first element. -/
def forEachFrom {α : Type} (f : α → Nat → Out Bytes) : Nat → List α → Out Bytes
  | _, [] => skipOut
  | i, a :: as => f a i +++ forEachFrom f (i + 1) as

/-- `l.ForEach(f)` (generated, e.g. ast/ast_arguments_gen.go), and `for i, x := range l`. -/
def forEach {α : Type} (f : α → Nat → Out Bytes) (l : List α) : Out Bytes := forEachFrom f 0 l

/-- `indentation` (ast/dumper.go:36). -/
def indentation : Bytes := b!"  "

/-- `strings.Repeat(s, n)`. -/
def repeatStr (s : Bytes) : Nat → Bytes
  | 0 => []
  | n + 1 => s ++ repeatStr s n

/-- `strings.Repeat(indentation, d.depth)`. -/
def indentOf (depth : Nat) : Bytes := repeatStr indentation depth

/-- `strings.Replace(in, old, new, -1)` for a non-empty `old`: leftmost matches, not overlapping.  The argument `skip` counts the bytes of
the last match still to be dropped. -/
def replaceAll (old new : Bytes) : Nat → Bytes → Bytes
  | _, [] => []
  | 0, b :: bs => if old.isPrefixOf (b :: bs) then new ++ replaceAll old new (old.length - 1) bs else b :: replaceAll old new 0 bs
  | skip + 1, _ :: bs => replaceAll old new skip bs

/-- `escapeGraphQLBlockString` (ast/dumper.go:996-998). -/
def escapeBlock (s : Bytes) : Bytes := replaceAll b!"\"\"\"" b!"\\\"\"\"" 0 s

/-- A lower-case hexadecimal digit. -/
def hexDigit (n : Nat) : Nat := if n < 10 then 48 + n else 87 + n

/-- `fmt.Sprintf("%x", n)`, for `n < fuel`. -/
def hexLoop : Nat → Nat → Bytes
  | 0, _ => []
  | fuel + 1, n => if n < 16 then [hexDigit n] else hexLoop fuel (n / 16) ++ [hexDigit (n % 16)]

/-- `fmt.Sprintf("%x", n)`. -/
def hexOf (n : Nat) : Bytes := hexLoop (n + 1) n

/-- What `escapeGraphQLString` writes for a rune (ast/dumper.go:968-989).  `utf8.UTFMax` is 4. -/
def escapeRune (r : Nat) : Bytes :=
  if 0x80 ≤ r ∧ r ≤ 0xFFFF then
    let escUni := hexOf r
    let padding := repeatStr b!"0" (4 - escUni.length)
    b!"\\u" ++ (padding ++ escUni)
  else if r = 34 then b!"\\\""
  else if r = 92 then b!"\\\\"
  else if r = 47 then b!"\\/"
  else if r = 8 then b!"\\b"
  else if r = 12 then b!"\\f"
  else if r = 9 then b!"\\t"
  else encodeRune r

/-- `for _, r := range in` (ast/dumper.go:967): the runes of the string, RuneError for each byte that is not part of a valid encoding; for strings shorter than `fuel`. -/
def runesF : Nat → Bytes → List Nat
  | 0, _ => []
  | _, [] => []
  | fuel + 1, b :: bs => (decodeRune (b :: bs)).1 :: runesF fuel ((b :: bs).drop (decodeRune (b :: bs)).2)

/-- The runes of a string. -/
def runes (s : Bytes) : List Nat := runesF (s.length + 1) s

/-- `escapeGraphQLString` (ast/dumper.go:964-992). -/
def escapeString (s : Bytes) : Bytes := (runes s).flatMap escapeRune

/-- The lines of a block string value, each with `indent` and one more level of indentation, separated by line feeds (ast/dumper.go:277-286).  `i` is the
index of the first line, `n` the number of all lines. -/
def indentLines (indent : Bytes) (n : Nat) : Nat → List Bytes → Bytes
  | _, [] => []
  | i, line :: lines =>
    indent ++ indentation ++ line ++ (if i ≠ n - 1 then [10] else []) ++ indentLines indent n (i + 1) lines

/-- A string value (ast/dumper.go:267-298). -/
def dumpString (depth : Nat) (s : Bytes) : Bytes :=
  if s.contains 10 then
    let indent := indentOf depth
    let lines := splitOn 10 (escapeBlock s)
    b!"\"\"\"" ++ b!"\n" ++ indentLines indent lines.length 0 lines ++ b!"\n" ++ indent ++ b!"\"\"\""
  else b!"\"" ++ escapeString s ++ b!"\""

section
variable (fmtG : Nat → Bytes)

mutual
/-- `dumpValue` (ast/dumper.go:258-338). -/
def dumpValue (depth : Nat) : Value → Out Bytes
  | .var n => write b!"$" +++ write n
  | .int i => write (itoa i)
  | .float f => write (fmtG f)
  | .str s => write (dumpString depth s)
  | .bool b => if b then write b!"true" else write b!"false"
  | .null => write b!"null"
  | .enum n => write n
  | .list vs => write b!"[" +++ dumpValues depth vs.length 0 vs +++ write b!"]"
  | .obj fs => write b!"{ " +++ dumpObjFields depth fs.length 0 fs +++ write b!" }"
/-- The loop over list values (ast/dumper.go:313-319): `vals` values, the first of which has index `i`. -/
def dumpValues (depth vals : Nat) : Nat → List Value → Out Bytes
  | _, [] => skipOut
  | i, v :: vs => dumpValue depth v +++ (if i < vals - 1 then write b!", " else skipOut) +++ dumpValues depth vals (i + 1) vs
/-- The loop over object fields (ast/dumper.go:325-334). -/
def dumpObjFields (depth vals : Nat) : Nat → List (Bytes × Value) → Out Bytes
  | _, [] => skipOut
  | i, (n, v) :: fs => write n +++ write b!": " +++ dumpValue depth v +++ (if i < vals - 1 then write b!", " else skipOut) +++
      dumpObjFields depth vals (i + 1) fs
end

/-- `dumpArgument` (ast/dumper.go:191-196). -/
def dumpArgument (depth : Nat) (a : Argument) : Out Bytes := write a.name +++ write b!": " +++ dumpValue fmtG depth a.value

/-- `dumpArguments` (ast/dumper.go:173-189). -/
def dumpArguments (depth : Nat) (args : List Argument) : Out Bytes :=
  if args.length = 0 then skipOut
  else write b!"(" +++
    forEach (fun a i => dumpArgument fmtG depth a +++ (if i < args.length - 1 then write b!", " else skipOut)) args +++ write b!")"

/-- `dumpDirective` (ast/dumper.go:398-403). -/
def dumpDirective (depth : Nat) (d : Directive) : Out Bytes := write b!"@" +++ write d.name +++ dumpArguments fmtG depth d.args

/-- `dumpDirectives` (ast/dumper.go:388-396). -/
def dumpDirectives (depth : Nat) (ds : List Directive) : Out Bytes :=
  forEach (fun d i => (if i ≠ 0 then write b!" " else skipOut) +++ dumpDirective fmtG depth d) ds

/-- `if x.Directives != nil { " "; d.dumpDirectives(x.Directives) }`, which stands in most methods. -/
def dumpOptDirectives (depth : Nat) (ds : List Directive) : Out Bytes :=
  if ds ≠ [] then write b!" " +++ dumpDirectives fmtG depth ds else skipOut

/-- `selection.TypeCondition.NamedType.NamedType`: the name, empty for a list type. -/
def Ty.rawName : Ty → Bytes
  | .named n _ => n
  | .list _ _ | .listNil _ => []

/-- `field.Type.NonNullable`. -/
def Ty.rawNonNull : Ty → Bool
  | .named _ b | .list _ b | .listNil b => b

mutual
/-- `dumpSelection` (ast/dumper.go:131-144) with `dumpFieldSelection` (147-170), `dumpFragmentSpread` (199-211), `dumpInlineFragment` (214-235).  `depth` is the depth before
the increment. -/
def dumpSelection (depth : Nat) : Selection → Out Bytes
  | .field alias name args dirs sels =>
    write (indentOf (depth + 1)) +++ (if alias ≠ [] then write alias +++ write b!": " else skipOut) +++ write name +++
      dumpArguments fmtG (depth + 1) args +++ dumpOptDirectives fmtG (depth + 1) dirs +++
      (if sels.isEmpty then skipOut else write b!" " +++ write b!"{\n" +++ dumpSelectionList (depth + 1) sels +++ write (indentOf (depth + 1)) +++ write b!"}")
  | .spread name dirs => write (indentOf (depth + 1)) +++ write b!"..." +++ write name +++ dumpOptDirectives fmtG (depth + 1) dirs
  | .inline cond dirs sels =>
    write (indentOf (depth + 1)) +++ write b!"..." +++
      (match cond with
        | some t => write b!" " +++ write b!"on" +++ write b!" " +++ write t.rawName
        | none => skipOut) +++
      dumpOptDirectives fmtG (depth + 1) dirs +++ write b!" " +++
      (write b!"{\n" +++ dumpSelectionList (depth + 1) sels +++ write (indentOf (depth + 1)) +++ write b!"}")
/-- The loop of `dumpSelections` (ast/dumper.go:122-125). -/
def dumpSelectionList (depth : Nat) : List Selection → Out Bytes
  | [] => skipOut
  | s :: ss => dumpSelection depth s +++ write b!"\n" +++ dumpSelectionList depth ss
end

/-- `dumpSelections` (ast/dumper.go:119-129); written out in `dumpSelection`, because of the recursion. -/
def dumpSelections (depth : Nat) (sels : List Selection) : Out Bytes :=
  write b!"{\n" +++ dumpSelectionList fmtG depth sels +++ write (indentOf depth) +++ write b!"}"

/-- `dumpType` (ast/dumper.go:372-385). -/
def dumpType : Ty → Out Bytes
  | .named n b => write n +++ (if b then write b!"!" else skipOut)
  | .list t b => (write b!"[" +++ dumpType t +++ write b!"]") +++ (if b then write b!"!" else skipOut)
  | .listNil _ => .panic

/-- `dumpVariableDefinition` (ast/dumper.go:357-369). -/
def dumpVariableDefinition (depth : Nat) (v : VarDef) : Out Bytes :=
  write b!"$" +++ write v.name +++ write b!": " +++ dumpType v.type +++
    (match v.default with
      | some x => write b!" = " +++ dumpValue fmtG depth x
      | none => skipOut)

/-- `dumpVariableDefinitions` (ast/dumper.go:341-355). -/
def dumpVariableDefinitions (depth : Nat) (vs : List VarDef) : Out Bytes :=
  write b!"(" +++
    forEach (fun v i => dumpVariableDefinition fmtG depth v +++ (if i < vs.length - 1 then write b!", " else skipOut)) vs +++ write b!")"

/-- `dumpOperationDefinition` (ast/dumper.go:81-116); the depth is 0 here and in all definitions. -/
def dumpOperationDefinition (defs : Nat) (o : OpDef) : Out Bytes :=
  let shorthand := defs == 1
  (match o.kind with
    | .query => if !shorthand || o.name ≠ [] then write b!"query " else skipOut
    | .mutation => write b!"mutation "
    | .subscription => write b!"subscription ") +++
  (if o.name ≠ [] then write o.name else skipOut) +++
  (if o.vars ≠ [] then dumpVariableDefinitions fmtG 0 o.vars else skipOut) +++
  dumpOptDirectives fmtG 0 o.dirs +++
  (if !shorthand then write b!" " else skipOut) +++
  dumpSelections fmtG 0 o.sels

/-- `dumpFragmentDefinition` (ast/dumper.go:237-255). -/
def dumpFragmentDefinition (f : FragDef) : Out Bytes :=
  write b!"fragment" +++ write b!" " +++ write f.name +++ write b!" " +++ write b!"on" +++ write b!" " +++ write f.cond.rawName +++
    dumpOptDirectives fmtG 0 f.dirs +++ write b!" " +++ dumpSelections fmtG 0 f.sels

/-- `dumpOperationTypeDefinition` (ast/dumper.go:449-457); the depth is 1 there. -/
def dumpOperationTypeDefinition (o : OpTypeDef) : Out Bytes :=
  write (indentOf 1) +++ write o.op.str +++ write b!": " +++ dumpType o.type

/-- The braces of `dumpSchemaDefinition` and `dumpSchemaExtension` (ast/dumper.go:436-445, 469-478). -/
def dumpOpTypes (ops : List OpTypeDef) : Out Bytes :=
  write b!" {\n" +++ forEach (fun o _ => dumpOperationTypeDefinition o +++ write b!"\n") ops +++ write b!"}"

/-- `dumpSchemaDefinition` (ast/dumper.go:428-446). -/
def dumpSchemaDefinition (s : SchemaDef) : Out Bytes := write b!"schema" +++ dumpOptDirectives fmtG 0 s.dirs +++ dumpOpTypes s.ops

/-- `dumpSchemaExtension` (ast/dumper.go:460-480). -/
def dumpSchemaExtension (s : SchemaDef) : Out Bytes :=
  write b!"extend schema" +++ dumpOptDirectives fmtG 0 s.dirs +++ (if s.ops ≠ [] then dumpOpTypes s.ops else skipOut)

/-- `dumpDescription` (ast/dumper.go:483-489). -/
def dumpDescription (desc : Bytes) : Out Bytes :=
  if desc ≠ [] then write b!"\"\"\"\n" +++ write desc +++ write b!"\n\"\"\"\n" else skipOut

/-- `dumpInputValueDefinition` (ast/dumper.go:657-676). -/
def dumpInputValueDefinition (v : InputVal) : Out Bytes :=
  dumpDescription v.desc +++ write v.name +++ write b!": " +++ write v.type.rawName +++
    (if v.type.rawNonNull then write b!"!" else skipOut) +++
    (match v.default with
      | some x => write b!" = " +++ dumpValue fmtG 0 x
      | none => skipOut) +++
    dumpOptDirectives fmtG 0 v.dirs

/-- `dumpArgumentsDefinition` (ast/dumper.go:643-654). -/
def dumpArgumentsDefinition (as : List InputVal) : Out Bytes :=
  write b!"(" +++ forEach (fun v i => (if i > 0 then write b!", " else skipOut) +++ dumpInputValueDefinition fmtG v) as +++ write b!")"

/-- `if x.ArgumentsDefinition != nil { d.dumpArgumentsDefinition(x.ArgumentsDefinition) }`. -/
def dumpOptArgsDef (as : List InputVal) : Out Bytes := if as ≠ [] then dumpArgumentsDefinition fmtG as else skipOut

/-- `dumpFieldDefinition` (ast/dumper.go:620-640). -/
def dumpFieldDefinition (f : FieldDef) : Out Bytes :=
  dumpDescription f.desc +++ write indentation +++ write f.name +++ dumpOptArgsDef fmtG f.args +++ write b!": " +++ write f.type.rawName +++
    (if f.type.rawNonNull then write b!"!" else skipOut) +++ dumpOptDirectives fmtG 0 f.dirs

/-- `dumpFieldsDefinition` (ast/dumper.go:609-618). -/
def dumpFieldsDefinition (fs : List FieldDef) : Out Bytes :=
  write b!"{\n" +++ forEach (fun f _ => dumpFieldDefinition fmtG f +++ write b!"\n") fs +++ write b!"}"

/-- Types between separators: the second half of `dumpImplementsInterfaces` and of `dumpUnionMemberTypes` (ast/dumper.go:601-606, 774-779). -/
def dumpTypeNames (sep : Bytes) (ts : List Ty) : Out Bytes :=
  forEach (fun t i => write t.rawName +++ (if i < ts.length - 1 then write sep else skipOut)) ts

/-- `dumpImplementsInterfaces` (ast/dumper.go:584-607). -/
def dumpImplementsInterfaces (is : List Ty) (hasFields : Bool) : Out Bytes :=
  let sep := if is.length < 3 then b!" & " else b!"\n " ++ ((if hasFields then indentation else []) ++ b!" & ")
  write b!"implements" +++ (if is.length < 3 then write b!" " else write sep) +++ dumpTypeNames sep is

/-- `dumpUnionMemberTypes` (ast/dumper.go:761-780). -/
def dumpUnionMemberTypes (ms : List Ty) : Out Bytes :=
  let sep := if ms.length < 3 then b!" | " else b!"\n " ++ b!" | "
  write b!"=" +++ (if ms.length < 3 then write b!" " else write sep) +++ dumpTypeNames sep ms

/-- `dumpEnumValueDefinition` (ast/dumper.go:827-837). -/
def dumpEnumValueDefinition (v : EnumVal) : Out Bytes :=
  dumpDescription v.desc +++ write indentation +++ write v.value +++ dumpOptDirectives fmtG 0 v.dirs

/-- `dumpEnumValuesDefinition` (ast/dumper.go:816-825). -/
def dumpEnumValuesDefinition (vs : List EnumVal) : Out Bytes :=
  write b!"{\n" +++ forEach (fun v _ => dumpEnumValueDefinition fmtG v +++ write b!"\n") vs +++ write b!"}"

/-- `dumpInputFieldsDefinition` (ast/dumper.go:873-883). -/
def dumpInputFieldsDefinition (vs : List InputVal) : Out Bytes :=
  write b!"{\n" +++ forEach (fun v _ => write indentation +++ dumpInputValueDefinition fmtG v +++ write b!"\n") vs +++ write b!"}"

/-- `if x != nil { " "; f(x) }`. -/
def dumpOpt {α : Type} (f : List α → Out Bytes) (l : List α) : Out Bytes := if l ≠ [] then write b!" " +++ f l else skipOut

/-- The name and what follows it: `dumpTypeDefinitionScalar` (ast/dumper.go:528-538), `-Object` (552-572), `-Interface` (700-715), `-Union` (734-749),
`-Enum` (799-814), `-InputObject` (856-871), and the same of the extensions: `dumpScalarTypeExtension` (541-549), `dumpObjectTypeExtension` (679-697), `dumpInterfaceTypeExtension` (718-731),
`dumpUnionTypeExtension` (783-796), `dumpEnumTypeExtension` (840-853), `dumpInputObjectTypeExtension` (886-899). -/
def dumpTypeBody (t : TypeDef) : Out Bytes :=
  match t.kind with
  | .scalar => write b!"scalar " +++ write t.name +++ dumpOptDirectives fmtG 0 t.dirs
  | .object => write b!"type " +++ write t.name +++ dumpOpt (fun is => dumpImplementsInterfaces is (!t.fields.isEmpty)) t.ifaces +++
      dumpOptDirectives fmtG 0 t.dirs +++ dumpOpt (dumpFieldsDefinition fmtG) t.fields
  | .interface => write b!"interface " +++ write t.name +++ dumpOptDirectives fmtG 0 t.dirs +++ dumpOpt (dumpFieldsDefinition fmtG) t.fields
  | .union => write b!"union " +++ write t.name +++ dumpOptDirectives fmtG 0 t.dirs +++ dumpOpt dumpUnionMemberTypes t.members
  | .enum => write b!"enum " +++ write t.name +++ dumpOptDirectives fmtG 0 t.dirs +++ dumpOpt (dumpEnumValuesDefinition fmtG) t.values
  | .inputObject => write b!"input " +++ write t.name +++ dumpOptDirectives fmtG 0 t.dirs +++ dumpOpt (dumpInputFieldsDefinition fmtG) t.inputs

/-- `dumpTypeDefinition` (ast/dumper.go:492-507). -/
def dumpTypeDefinition (t : TypeDef) : Out Bytes := dumpDescription t.desc +++ dumpTypeBody fmtG t

/-- `dumpTypeExtension` (ast/dumper.go:510-525). -/
def dumpTypeExtension (t : TypeDef) : Out Bytes := write b!"extend " +++ dumpTypeBody fmtG t

/-- `NamesByDirectiveLocations[bit]` (ast/ast.go:631-651): empty if missing. -/
def nameByLoc (bit : Nat) : Bytes :=
  match DirLoc.all.find? (fun l => l.bit == bit) with
  | some l => l.name
  | none => []

/-- The names of the bits set in the mask, lowest first (ast/dumper.go:928-938): `for i := 0; i <= len(NamesByDirectiveLocations); i++`. -/
def locNames (locs : Nat) : List Bytes :=
  (List.range (DirLoc.all.length + 1)).filterMap fun i => if locs &&& (1 <<< i) = 0 then none else some (nameByLoc (locs &&& (1 <<< i)))

/-- `dumpDirectiveLocations` (ast/dumper.go:927-956). -/
def dumpDirectiveLocations (locs : Nat) : Out Bytes :=
  let ns := locNames locs
  let sep := if ns.length < 3 then b!" | " else b!"\n " ++ b!" | "
  (if ns.length < 3 then write b!" " else write sep) +++
    forEach (fun n i => write n +++ (if i < ns.length - 1 then write sep else skipOut)) ns

/-- `dumpDirectiveDefinition` (ast/dumper.go:903-915). -/
def dumpDirectiveDefinition (d : DirDef) : Out Bytes :=
  dumpDescription d.desc +++ write b!"directive @" +++ write d.name +++ dumpOptArgsDef fmtG d.args +++ write b!" on" +++ dumpDirectiveLocations d.locs

/-- `dumpDefinition` (ast/dumper.go:60-69) with `dumpExecutableDefinition` (71-78), `dumpTypeSystemDefinition` (406-415), `dumpTypeSystemExtension` (418-425). -/
def dumpDefinition (defs : Nat) : Body → Out Bytes
  | .op o => dumpOperationDefinition fmtG defs o
  | .frag f => dumpFragmentDefinition fmtG f
  | .schema s => dumpSchemaDefinition fmtG s
  | .type t => dumpTypeDefinition fmtG t
  | .directive d => dumpDirectiveDefinition fmtG d
  | .schemaExt s => dumpSchemaExtension fmtG s
  | .typeExt t => dumpTypeExtension fmtG t

/-- `dumpDefinitions` (ast/dumper.go:46-58). -/
def dumpDefinitions (defs : Nat) (ds : List Definition) : Out Bytes :=
  forEach (fun d i => (if i ≠ 0 then write b!"\n" else skipOut) +++ dumpDefinition fmtG defs d.body +++ (if i < defs - 1 then write b!"\n" else skipOut)) ds

/-- `Sdump` (ast/dumper.go:27-33) with `Fdump` (14-17). -/
def sdump (doc : Document) : Out Bytes := dumpDefinitions fmtG doc.defs.length doc.defs

end

end GQL
