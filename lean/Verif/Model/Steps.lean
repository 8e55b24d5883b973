/-
The parser at work (language/parser.go).

Model/Parser takes the tokens as a list that is there from the start, and says what `Parse` returns.  Here the parser holds one
token and calls `Scan` when it wants the next one, as in the code, and what it does is counted: `steps` is the number of times it
looks at its token (`p.token`) or asks for the next one, and `lx.n` the number of reads of the lexer (Model/Reads).  The functions follow
those of Model/Parser one by one; Proofs/Steps shows that they return the same.
-/
import Verif.Model.Reads
import Verif.Model.Parser

namespace GQL

/-- `Parser` (parser.go:13-16): the token, the lexer, and the number of steps so far. -/
structure PSt where
  tok : Token
  lx : CLexer
  steps : Nat

/-- Outcome of a parser function, and the state it leaves. -/
inductive ResS (α : Type) where
  | ok (a : α) (s : PSt)
  | err (e : PErr) (s : PSt)
  | panic (s : PSt)
  | oof

/-- A parser function. -/
def PS (α : Type) := PSt → ResS α

/-- Go's early return on error. -/
def PS.bind {α β : Type} (p : PS α) (f : α → PS β) : PS β := fun s =>
  match p s with
  | .ok a r => f a r
  | .err e r => .err e r
  | .panic r => .panic r
  | .oof => .oof

instance : Monad PS where
  pure a := fun s => .ok a s
  bind := PS.bind

/-- `p.token`. -/
def curS : PS Token := fun s => .ok s.tok { s with steps := s.steps + 1 }

/-- `p.token = p.lexer.Scan()`. -/
def advanceS : PS Unit := fun s =>
  match scanC s.lx with
  | .ret (t, c) => .ok () ⟨t, c, s.steps + 1⟩
  | .panic => .panic s
  | .oof => .oof

/-- Returning an error. -/
def failS {α : Type} (e : PErr) : PS α := fun s => .err e s

/-- A nil dereference. -/
def crashS {α : Type} : PS α := fun s => .panic s

/-- Out of fuel. -/
def outOfFuelS {α : Type} : PS α := fun _ => .oof

/-- `peek0` (parser.go:1660-1662). -/
def peek0S (k : TokenKind) : PS Bool := do return (← curS).kind == k

/-- `peek1` (parser.go:1665-1667). -/
def peek1S (k : TokenKind) (l : Bytes) : PS Bool := do
  let t ← curS
  return t.kind == k && t.lit == l

/-- `peekn` (parser.go:1670-1686). -/
def peeknS (k : TokenKind) (ls : List Bytes) : PS Bool := do
  let t ← curS
  if t.kind ≠ k then return false
  if ls.isEmpty then return true
  return ls.contains t.lit

/-- `consume0` (parser.go:1576-1585). -/
def consume0S (k : TokenKind) : PS (Option Token) := do
  let t ← curS
  if t.kind = k then
    advanceS
    return some t
  else return none

/-- `consumen` (parser.go:1600-1621). -/
def consumenS (k : TokenKind) (ls : List Bytes) : PS (Option Token) := do
  let t ← curS
  if t.kind ≠ k then return none
  if ls.isEmpty then
    advanceS
    return some t
  if ls.contains t.lit then
    advanceS
    return some t
  return none

/-- `mustConsume0` (parser.go:1624-1634). -/
def mustConsume0S (k : TokenKind) : PS Token := do
  let t ← curS
  if t.kind ≠ k then failS (.unexpected t [expected k []])
  else
    advanceS
    return t

/-- `mustConsume1` (parser.go:1637-1647). -/
def mustConsume1S (k : TokenKind) (l : Bytes) : PS Token := do
  let t ← curS
  if t.kind ≠ k ∨ t.lit ≠ l then failS (.unexpected t [expected k [l]])
  else
    advanceS
    return t

/-- `mustConsumen` (parser.go:1650-1657). -/
def mustConsumenS (k : TokenKind) (ls : List Bytes) : PS Token := do
  let t ← curS
  match ← consumenS k ls with
  | some t => return t
  | none => failS (.unexpected t [expected k ls])

/-- `skip1` (parser.go:1700-1708). -/
def skip1S (k : TokenKind) (l : Bytes) : PS Bool := do
  let t ← curS
  if t.kind ≠ k ∨ t.lit ≠ l then return false
  else
    advanceS
    return true

/-- `p.unexpected(p.token, ...)` as a result. -/
def unexpectedCurS {α : Type} (wants : List Bytes) : PS α := do
  let t ← curS
  failS (.unexpected t wants)

/-- `for { x := body; list.Add(x); if brk { break } }`, then `list.Reverse()`. -/
def doWhileFS {α : Type} (body : PS α) (brk : PS Bool) : Nat → PS (List α)
  | 0 => outOfFuelS
  | n+1 => do
    let a ← body
    if ← brk then return [a]
    let as ← doWhileFS body brk n
    return a :: as

/-- The loop, with more fuel than there can be tokens. -/
def doWhileS {α : Type} (body : PS α) (brk : PS Bool) : PS (List α) := fun s =>
  doWhileFS body brk (s.lx.l.input.length + 2) s

/-- `for !brk { x := body; list.Add(x) }`, then `list.Reverse()`. -/
def untilDoFS {α : Type} (brk : PS Bool) (body : PS α) : Nat → PS (List α)
  | 0 => outOfFuelS
  | n+1 => do
    if ← brk then return []
    let a ← body
    let as ← untilDoFS brk body n
    return a :: as

/-- The loop, with more fuel than there can be tokens. -/
def untilDoS {α : Type} (brk : PS Bool) (body : PS α) : PS (List α) := fun s =>
  untilDoFS brk body (s.lx.l.input.length + 2) s

/-- Negation of a condition. -/
def notPS (p : PS Bool) : PS Bool := do return !(← p)

/-- Disjunction of two peeks. -/
def orPS (p q : PS Bool) : PS Bool := do
  if ← p then return true
  q

section
variable (pf : Bytes → Option Nat)

/-- `parseValue` (parser.go:586-697). -/
def parseValueS : Nat → PS Value
  | 0 => outOfFuelS
  | n+1 => do
    if ← skip1S .punctuator b!"$" then
      let t ← mustConsume0S .name
      return .var t.lit
    if let some t ← consume0S .intValue then
      match atoi t.lit with
      | none => failS (.atoi t.lit)
      | some i => return .int i
    else if let some t ← consume0S .floatValue then
      match pf t.lit with
      | none => failS (.parseFloat t.lit)
      | some f => return .float f
    else if let some t ← consume0S .stringValue then
      return .str t.lit
    else if let some t ← consumenS .name [b!"true", b!"false"] then
      return .bool (t.lit == b!"true")
    else if ← skip1S .name b!"null" then
      return .null
    else if let some t ← consume0S .name then
      return .enum t.lit
    else if ← skip1S .punctuator b!"[" then
      let vs ← untilDoS (skip1S .punctuator b!"]") (parseValueS n)
      return .list vs
    else if ← skip1S .punctuator b!"{" then
      let fs ← untilDoS (skip1S .punctuator b!"}") (do
        let t ← mustConsume0S .name
        let _ ← mustConsume1S .punctuator b!":"
        let v ← parseValueS n
        return (t.lit, v))
      return .obj fs
    else failS .todo

/-- `parseDefaultValue` (parser.go:572-583). -/
def parseDefaultValueS (n : Nat) : PS (Option Value) := do
  if ← skip1S .punctuator b!"=" then
    let v ← parseValueS pf n
    return some v
  else return none

/-- `parseArguments` (parser.go:538-569). -/
def parseArgumentsS (n : Nat) : PS (List Argument) := do
  if ← skip1S .punctuator b!"(" then
    untilDoS (skip1S .punctuator b!")") (do
      let t ← mustConsume0S .name
      let _ ← mustConsume1S .punctuator b!":"
      let v ← parseValueS pf n
      return (⟨t.lit, v⟩ : Argument))
  else return []

/-- `parseDirectives` (parser.go:352-384). -/
def parseDirectivesS (n : Nat) (loc : DirLoc) : PS (List Directive) :=
  untilDoS (notPS (peek1S .punctuator b!"@")) (do
    let _ ← mustConsume1S .punctuator b!"@"
    let t ← mustConsume0S .name
    let args ← parseArgumentsS pf n
    return (⟨t.lit, args, loc⟩ : Directive))

/-- `parseType` (parser.go:700-733).  An error inside the brackets is swallowed (708-711). -/
def parseTypeS : Nat → PS Ty
  | 0 => outOfFuelS
  | n+1 => do
    if ← skip1S .punctuator b!"[" then
      fun s => match parseTypeS n s with
        | .err _ r => .ok (.listNil false) r
        | .panic r => .panic r
        | .oof => .oof
        | .ok t r => (do
            let _ ← mustConsume1S .punctuator b!"]"
            return Ty.list t (← skip1S .punctuator b!"!")) r
    else do
      let t ← mustConsume0S .name
      return Ty.named t.lit (← skip1S .punctuator b!"!")

/-- `conType.Kind != ast.TypeKindNamed` (parser.go:292, 961, 1039). -/
def mustBeNamedS (t : Ty) : PS Unit :=
  match t with
  | .named _ _ => return ()
  | _ => unexpectedCurS [b!"NamedType"]

/-- `parseTypeCondition` (parser.go:281-300). -/
def parseTypeConditionS (n : Nat) : PS Ty := do
  let _ ← mustConsume1S .name b!"on"
  let t ← parseTypeS n
  mustBeNamedS t
  return t

/-- `parseVariableDefinitions` (parser.go:303-349). -/
def parseVariableDefinitionsS (n : Nat) : PS (List VarDef) := do
  if ← skip1S .punctuator b!"(" then
    let ds ← doWhileS (do
      let _ ← mustConsume1S .punctuator b!"$"
      let t ← mustConsume0S .name
      let _ ← mustConsume1S .punctuator b!":"
      let ty ← parseTypeS n
      let dv ← parseDefaultValueS pf n
      return (⟨t.lit, ty, dv⟩ : VarDef)) (peek1S .punctuator b!")")
    let _ ← mustConsume1S .punctuator b!")"
    return ds
  else return []

/-- `parseFragmentSpread` (parser.go:437-455). -/
def parseFragmentSpreadS (n : Nat) : PS Selection := do
  let t ← mustConsume0S .name
  let dirs ← parseDirectivesS pf n .fragmentSpread
  return .spread t.lit dirs

/-- `parseInlineFragment` (parser.go:458-486); `sel` is `parseSelectionSet(false)`. -/
def parseInlineFragmentS (n : Nat) (sel : PS (List Selection)) : PS Selection := do
  let cond ← (do
    if ← peek1S .name b!"on" then
      let c ← parseTypeConditionS n
      return some c
    else return none)
  let dirs ← parseDirectivesS pf n .inlineFragment
  let sels ← sel
  return .inline cond dirs sels

/-- `parseField` (parser.go:489-535); `sel` is `parseSelectionSet(true)`. -/
def parseFieldS (n : Nat) (sel : PS (List Selection)) : PS Selection := do
  let t ← mustConsume0S .name
  let (alias, name) ← (do
    if ← skip1S .punctuator b!":" then
      let t2 ← mustConsume0S .name
      return (t.lit, t2.lit)
    else return (([] : Bytes), t.lit))
  let args ← parseArgumentsS pf n
  let dirs ← parseDirectivesS pf n .field
  let sels ← sel
  return .field alias name args dirs sels

/-- `parseSelectionSet` (parser.go:387-434). -/
def parseSelectionSetS : Nat → Bool → PS (List Selection)
  | 0, _ => outOfFuelS
  | n+1, optional => do
    if ← skip1S .punctuator b!"{" then
      let sels ← doWhileS (do
        if ← skip1S .punctuator b!"..." then
          let t ← curS
          if t.kind = .name ∧ t.lit ≠ b!"on" then parseFragmentSpreadS pf n
          else parseInlineFragmentS pf n (parseSelectionSetS n false)
        else parseFieldS pf n (parseSelectionSetS n true))
        (orPS (peek1S .punctuator b!"}") (peek0S .eof))
      let _ ← mustConsume1S .punctuator b!"}"
      return sels
    else if optional then return []
    else unexpectedCurS [expected .punctuator [b!"{"]]

/-- `parseOperationType` (parser.go:223-237). -/
def parseOperationTypeS : PS OpKind := do
  let t ← mustConsumenS .name [b!"query", b!"mutation", b!"subscription"]
  return if t.lit = b!"query" then .query else if t.lit = b!"mutation" then .mutation else .subscription

/-- `parseOperationDefinition` (parser.go:164-220). -/
def parseOperationDefinitionS (n : Nat) (shorthand : Bool) : PS OpDef := do
  if shorthand then
    let sels ← parseSelectionSetS pf n false
    return ⟨.query, [], [], [], sels⟩
  else
    let k ← parseOperationTypeS
    let name ← consume0S .name
    let vars ← parseVariableDefinitionsS pf n
    let dirs ← parseDirectivesS pf n k.loc
    let sels ← parseSelectionSetS pf n false
    return ⟨k, (name.map (·.lit)).getD [], vars, dirs, sels⟩

/-- `parseFragmentDefinition` (parser.go:240-278).  Returning `nil, nil` (no name after
`fragment`) makes `Parse` dereference nil (parser.go:50), so it is a panic here. -/
def parseFragmentDefinitionS (n : Nat) : PS FragDef := do
  if ← skip1S .name b!"fragment" then
    match ← consume0S .name with
    | none => crashS
    | some t =>
      if t.lit = b!"on" then unexpectedCurS [expected .name [b!"!on"]]
      else
        let cond ← parseTypeConditionS n
        let dirs ← parseDirectivesS pf n .fragmentDefinition
        let sels ← parseSelectionSetS pf n false
        return ⟨t.lit, cond, dirs, sels⟩
  else crashS

/-- One entry of `{ query: T ... }` (parser.go:946-968, 1024-1046). -/
def parseOperationTypeDefinitionS (n : Nat) : PS OpTypeDef := do
  let k ← parseOperationTypeS
  if ← skip1S .punctuator b!":" then
    let t ← parseTypeS n
    mustBeNamedS t
    return ⟨t, k⟩
  else unexpectedCurS [expected .punctuator [b!":"]]

/-- `parseOperationTypeDefinitions` (parser.go:1017-1059), and the same loop in
`parseSchemaDefinition` (940-978). -/
def parseOperationTypeDefinitionsS (n : Nat) : PS (List OpTypeDef) := do
  if ← skip1S .punctuator b!"{" then
    let ops ← doWhileS (parseOperationTypeDefinitionS n) (orPS (peek1S .punctuator b!"}") (peek0S .eof))
    let _ ← mustConsume1S .punctuator b!"}"
    return ops
  else unexpectedCurS [expected .punctuator [b!"{"]]

/-- `parseSchemaDefinition` (parser.go:930-984). -/
def parseSchemaDefinitionS (n : Nat) : PS SchemaDef := do
  if ← skip1S .name b!"schema" then
    let dirs ← parseDirectivesS pf n .schema
    let ops ← parseOperationTypeDefinitionsS n
    return ⟨dirs, ops⟩
  else unexpectedCurS [expected .name [b!"schema"]]

/-- `parseSchemaExtension` (parser.go:988-1015). -/
def parseSchemaExtensionS (n : Nat) : PS SchemaDef := do
  if ← skip1S .name b!"schema" then
    let dirs ← parseDirectivesS pf n .schema
    let ops ← (do
      if ← peek1S .punctuator b!"{" then parseOperationTypeDefinitionsS n
      else return [])
    if dirs.length = 0 ∧ ops.length = 0 then unexpectedCurS []
    else return ⟨dirs, ops⟩
  else unexpectedCurS [expected .name [b!"schema"]]

/-- `parseInputValueDefinition` (parser.go:1091-1132). -/
def parseInputValueDefinitionS (n : Nat) (loc : DirLoc) : PS InputVal := do
  let desc ← consume0S .stringValue
  let t ← mustConsume0S .name
  if ← skip1S .punctuator b!":" then
    let ty ← parseTypeS n
    let dv ← parseDefaultValueS pf n
    let dirs ← parseDirectivesS pf n loc
    return ⟨(desc.map (·.lit)).getD [], t.lit, ty, dirs, dv⟩
  else unexpectedCurS [expected .punctuator [b!":"]]

/-- `parseArgumentsDefinition` (parser.go:1062-1088). -/
def parseArgumentsDefinitionS (n : Nat) : PS (List InputVal) := do
  if ← skip1S .punctuator b!"(" then
    let ds ← doWhileS (parseInputValueDefinitionS pf n .argumentDefinition)
      (orPS (peek1S .punctuator b!")") (peek0S .eof))
    let _ ← mustConsume1S .punctuator b!")"
    return ds
  else return []

/-- `parseDirectiveLocations` (parser.go:1550-1569).  The error of `mustConsumen` is replaced by an equal
one. -/
def parseDirectiveLocationsS : PS Nat := do
  let _ ← skip1S .punctuator b!"|"
  let ls ← doWhileS (mustConsumenS .name directiveLocations) (notPS (skip1S .punctuator b!"|"))
  return ls.foldl (fun a t => a ||| locByName t.lit) 0

/-- `parseDirectiveDefinition` (parser.go:1135-1169). -/
def parseDirectiveDefinitionS (n : Nat) (desc : Bytes) : PS DirDef := do
  if ← skip1S .name b!"directive" then
    if ← skip1S .punctuator b!"@" then
      let t ← mustConsume0S .name
      let args ← parseArgumentsDefinitionS pf n
      if ← skip1S .name b!"on" then
        let locs ← parseDirectiveLocationsS
        return ⟨desc, t.lit, args, locs⟩
      else unexpectedCurS [expected .name [b!"on"]]
    else unexpectedCurS [expected .punctuator [b!"@"]]
  else crashS

/-- `parseImplementsInterfaces` (parser.go:1347-1370). -/
def parseImplementsInterfacesS (n : Nat) : PS (List Ty) := do
  if ← skip1S .name b!"implements" then
    let _ ← skip1S .punctuator b!"&"
    doWhileS (parseTypeS n) (notPS (skip1S .punctuator b!"&"))
  else return []

/-- `parseFieldsDefinition` (parser.go:1373-1430). -/
def parseFieldsDefinitionS (n : Nat) : PS (List FieldDef) := do
  if ← skip1S .punctuator b!"{" then
    doWhileS (do
      let desc ← consume0S .stringValue
      let t ← mustConsume0S .name
      let args ← parseArgumentsDefinitionS pf n
      if ← skip1S .punctuator b!":" then
        let ty ← parseTypeS n
        let dirs ← parseDirectivesS pf n .fieldDefinition
        return (⟨(desc.map (·.lit)).getD [], t.lit, args, ty, dirs⟩ : FieldDef)
      else unexpectedCurS [expected .punctuator [b!":"]])
      (skip1S .punctuator b!"}")
  else return []

/-- `parseUnionMemberTypes` (parser.go:1433-1456). -/
def parseUnionMemberTypesS (n : Nat) : PS (List Ty) := do
  if ← skip1S .punctuator b!"=" then
    let _ ← skip1S .punctuator b!"|"
    doWhileS (parseTypeS n) (notPS (skip1S .punctuator b!"|"))
  else return []

/-- `parseEnumValuesDefinition` (parser.go:1459-1501). -/
def parseEnumValuesDefinitionS (n : Nat) : PS (List EnumVal) := do
  if ← skip1S .punctuator b!"{" then
    doWhileS (do
      let desc ← consume0S .stringValue
      let t ← mustConsume0S .name
      if t.lit = b!"false" ∨ t.lit = b!"true" ∨ t.lit = b!"null" then
        failS (.unexpected t [expected .name [b!"valid enum value"]])
      else
        let dirs ← parseDirectivesS pf n .enumValue
        return (⟨(desc.map (·.lit)).getD [], dirs, t.lit⟩ : EnumVal))
      (skip1S .punctuator b!"}")
  else return []

/-- `parseInputFieldsDefinition` (parser.go:1504-1525). -/
def parseInputFieldsDefinitionS (n : Nat) : PS (List InputVal) := do
  if ← skip1S .punctuator b!"{" then
    doWhileS (parseInputValueDefinitionS pf n .inputFieldDefinition) (skip1S .punctuator b!"}")
  else return []

/-- `parseScalarTypeDefinition`, `parseObjectDefinition`, `parseInterfaceDefinition`,
`parseUnionDefinition`, `parseEnumDefinition`, `parseInputObjectDefinition` (parser.go:1197-1344), by the
kind; the description is set by the caller (parser.go:868-871). -/
def parseTypeBodyS (n : Nat) (desc : Bytes) (k : TypeKind) : PS TypeDef := do
  let t ← mustConsume0S .name
  match k with
  | .scalar =>
    let dirs ← parseDirectivesS pf n .scalar
    return { desc, name := t.lit, kind := .scalar, dirs }
  | .object =>
    let ifaces ← parseImplementsInterfacesS n
    let dirs ← parseDirectivesS pf n .object
    let fields ← parseFieldsDefinitionS pf n
    return { desc, name := t.lit, kind := .object, ifaces, dirs, fields }
  | .interface =>
    let dirs ← parseDirectivesS pf n .interface
    let fields ← parseFieldsDefinitionS pf n
    return { desc, name := t.lit, kind := .interface, dirs, fields }
  | .union =>
    let dirs ← parseDirectivesS pf n .union
    let members ← parseUnionMemberTypesS n
    return { desc, name := t.lit, kind := .union, dirs, members }
  | .enum =>
    let dirs ← parseDirectivesS pf n .enum
    let values ← parseEnumValuesDefinitionS pf n
    return { desc, name := t.lit, kind := .enum, dirs, values }
  | .inputObject =>
    let dirs ← parseDirectivesS pf n .inputObject
    let inputs ← parseInputFieldsDefinitionS pf n
    return { desc, name := t.lit, kind := .inputObject, dirs, inputs }

/-- `parseTypeDefinition` (parser.go:1172-1194).  `nil, nil` for an unknown keyword would be
dereferenced later. -/
def parseTypeDefinitionS (n : Nat) (desc : Bytes) : PS TypeDef := do
  let t ← mustConsume0S .name
  match kindOf t.lit with
  | some k => parseTypeBodyS pf n desc k
  | none => crashS

/-- `parseTypeExtension` (parser.go:737-829).  An unknown keyword (which cannot be: 905) is a scalar
extension with location 0 in the code; the model panics. -/
def parseTypeExtensionS (n : Nat) : PS TypeDef := do
  let kt ← mustConsume0S .name
  let t ← mustConsume0S .name
  let ifaces ← (do
    if kt.lit = b!"type" then
      if ← peek1S .name b!"implements" then parseImplementsInterfacesS n
      else return []
    else return [])
  match kindOf kt.lit with
  | none => crashS
  | some .scalar =>
    let dirs ← parseDirectivesS pf n .scalar
    return { name := t.lit, kind := .scalar, ifaces, dirs }
  | some .object =>
    let dirs ← parseDirectivesS pf n .object
    let fields ← parseFieldsDefinitionS pf n
    return { name := t.lit, kind := .object, ifaces, dirs, fields }
  | some .interface =>
    let dirs ← parseDirectivesS pf n .interface
    let fields ← parseFieldsDefinitionS pf n
    return { name := t.lit, kind := .interface, ifaces, dirs, fields }
  | some .union =>
    let dirs ← parseDirectivesS pf n .union
    let members ← parseUnionMemberTypesS n
    return { name := t.lit, kind := .union, ifaces, dirs, members }
  | some .enum =>
    let dirs ← parseDirectivesS pf n .enum
    let values ← parseEnumValuesDefinitionS pf n
    return { name := t.lit, kind := .enum, ifaces, dirs, values }
  | some .inputObject =>
    let dirs ← parseDirectivesS pf n .inputObject
    let inputs ← parseInputFieldsDefinitionS pf n
    return { name := t.lit, kind := .inputObject, ifaces, dirs, inputs }

/-- `parseTypeSystemDefinition` (parser.go:832-881).  An empty definition (880) cannot be returned; it would be
a schema definition that is nil. -/
def parseTypeSystemDefinitionS (n : Nat) (desc : Bytes) : PS Body := do
  if ← peek1S .name b!"schema" then
    let s ← parseSchemaDefinitionS pf n
    return .schema s
  else if ← peek1S .name b!"directive" then
    let d ← parseDirectiveDefinitionS pf n desc
    return .directive d
  else if ← peeknS .name typeKeywords then
    let t ← parseTypeDefinitionS pf n desc
    return .type t
  else crashS

/-- `parseTypeSystemExtension` (parser.go:885-927). -/
def parseTypeSystemExtensionS (n : Nat) : PS Body := do
  if ← skip1S .name b!"extend" then
    if ← peek1S .name b!"schema" then
      let s ← parseSchemaExtensionS pf n
      return .schemaExt s
    else if ← peeknS .name typeKeywords then
      let t ← parseTypeExtensionS pf n
      return .typeExt t
    else unexpectedCurS [expected .name (b!"schema" :: typeKeywords)]
  else unexpectedCurS [expected .name [b!"extend"]]

/-- `parseDefinition` (parser.go:91-161), without the location. -/
def parseDefinitionBodyS (n : Nat) : PS Body := do
  let t ← curS
  let shorthand := t.lit == b!"{"
  if ← orPS (peeknS .name [b!"query", b!"mutation", b!"subscription"]) (peek1S .punctuator b!"{") then
    let o ← parseOperationDefinitionS pf n shorthand
    return .op o
  else if ← peek1S .name b!"fragment" then
    let f ← parseFragmentDefinitionS pf n
    return .frag f
  else if ← peek1S .name b!"extend" then
    parseTypeSystemExtensionS pf n
  else
    let desc ← consume0S .stringValue
    let d := (desc.map (·.lit)).getD []
    let lits := typeKeywords ++ [b!"directive"] ++ (if d = [] then [b!"schema"] else [])
    if ← peeknS .name lits then parseTypeSystemDefinitionS pf n d
    else unexpectedCurS [expected .name [b!"query", b!"mutation", b!"fragment"], expected .punctuator [b!"{"]]

/-- `parseDefinition` (parser.go:91-161). -/
def parseDefinitionS (n : Nat) : PS Definition := do
  let t ← curS
  let b ← parseDefinitionBodyS pf n
  return ⟨⟨t.line, t.col⟩, b⟩

/-- The loop of `Parse` (parser.go:38-78): stops at EOF, fails at an Illegal token. -/
def parseDefsS (n : Nat) : PS (List Definition) :=
  doWhileS (do
      let d ← parseDefinitionS pf n
      if ← peek0S .illegal then unexpectedCurS []
      else return d)
    (peek0S .eof)

/-- A run of `Parse`: what it returns, how often the lexer reads and how many steps the parser makes. -/
structure Ran where
  out : ParseOut
  reads : Nat
  steps : Nat

/-- `NewParser(input).Parse()` (parser.go:27-88): the first token is scanned (30), then the definitions are read. -/
def parseS (input : Bytes) : Ran :=
  match scanC (newCLexer input) with
  | .panic => ⟨.panic, 0, 0⟩
  | .oof => ⟨.oof, 0, 0⟩
  | .ret (t, c) =>
    match parseDefsS pf (input.length + 2) ⟨t, c, 1⟩ with
    | .ok defs s => ⟨.ok (mkDocument defs), s.lx.n, s.steps⟩
    | .err e s => ⟨.err e, s.lx.n, s.steps⟩
    | .panic s => ⟨.panic, s.lx.n, s.steps⟩
    | .oof => ⟨.oof, 0, 0⟩

end

end GQL
