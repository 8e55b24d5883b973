/-
Model of language/parser.go.

The parser pulls tokens from the lexer one at a time and never moves past an EOF or Illegal token
(it only consumes names, punctuators and values; see `Proofs/ParseSafe`), so its state is the list
of the tokens from the current one (`p.token`) on, as given by `tokens`.  A run ends
normally, with an error (the state is kept: `parseType` swallows errors), or with a panic
(nil dereference).  Recursive functions take fuel `n`; `oof` is shown to be impossible.
`strconv.ParseFloat` is a parameter.
-/
import Verif.Model.Lexer
import Verif.Model.Ast

namespace GQL

/-- Errors the parser returns. -/
inductive PErr where
  /-- `p.unexpected(tok, wants...)` (parser.go:1738-1766). -/
  | unexpected (tok : Token) (wants : List Bytes)
  /-- Error of `strconv.Atoi` (parser.go:600-603). -/
  | atoi (lit : Bytes)
  /-- Error of `strconv.ParseFloat` (parser.go:612-615). -/
  | parseFloat (lit : Bytes)
  /-- ``errors.New("TODO: see `parseDefinition`")`` (parser.go:696). -/
  | todo
  deriving DecidableEq, Repr

/-- Outcome of a parser function. -/
inductive Res (α : Type) where
  | ok (a : α) (rest : List Token)
  | err (e : PErr) (rest : List Token)
  | panic
  | oof
  deriving Repr

/-- A parser function: state in, result and state out. -/
def P (α : Type) := List Token → Res α

/-- Go's early return on error. -/
def P.bind {α β : Type} (p : P α) (f : α → P β) : P β := fun ts =>
  match p ts with
  | .ok a r => f a r
  | .err e r => .err e r
  | .panic => .panic
  | .oof => .oof

instance : Monad P where
  pure a := fun ts => .ok a ts
  bind := P.bind

/-- `TokenKind.String` (token.go:24-37, 53-55). -/
def TokenKind.str : TokenKind → Bytes
  | .illegal => b!"Illegal" | .eof => b!"EOF" | .punctuator => b!"Punctuator" | .name => b!"Name"
  | .intValue => b!"IntValue" | .floatValue => b!"FloatValue" | .stringValue => b!"StringValue"

/-- The current token.  The list is never empty. -/
def hd (ts : List Token) : Token := ts.headD ⟨.eof, [], 0, 0⟩

/-- `p.token`. -/
def cur : P Token := fun ts => .ok (hd ts) ts

/-- `p.token = p.lexer.Scan()`. -/
def advance : P Unit := fun ts => .ok () ts.tail

/-- Returning an error. -/
def fail {α : Type} (e : PErr) : P α := fun ts => .err e ts

/-- A nil dereference. -/
def crash {α : Type} : P α := fun _ => .panic

/-- Out of fuel. -/
def outOfFuel {α : Type} : P α := fun _ => .oof

/-- `expected` (parser.go:1728-1735). -/
def expected (k : TokenKind) (ls : List Bytes) : Bytes :=
  k.str ++ b!" '" ++ (b!"|").intercalate ls ++ b!"'"

/-- `peek0` (parser.go:1660-1662). -/
def peek0 (k : TokenKind) : P Bool := do return (← cur).kind == k

/-- `peek1` (parser.go:1665-1667). -/
def peek1 (k : TokenKind) (l : Bytes) : P Bool := do
  let t ← cur
  return t.kind == k && t.lit == l

/-- `peekn` (parser.go:1670-1686). -/
def peekn (k : TokenKind) (ls : List Bytes) : P Bool := do
  let t ← cur
  if t.kind ≠ k then return false
  if ls.isEmpty then return true
  return ls.contains t.lit

/-- `consume0` (parser.go:1576-1585). -/
def consume0 (k : TokenKind) : P (Option Token) := do
  let t ← cur
  if t.kind = k then
    advance
    return some t
  else return none

/-- `consumen` (parser.go:1600-1621). -/
def consumen (k : TokenKind) (ls : List Bytes) : P (Option Token) := do
  let t ← cur
  if t.kind ≠ k then return none
  if ls.isEmpty then
    advance
    return some t
  if ls.contains t.lit then
    advance
    return some t
  return none

/-- `mustConsume0` (parser.go:1624-1634). -/
def mustConsume0 (k : TokenKind) : P Token := do
  let t ← cur
  if t.kind ≠ k then fail (.unexpected t [expected k []])
  else
    advance
    return t

/-- `mustConsume1` (parser.go:1637-1647). -/
def mustConsume1 (k : TokenKind) (l : Bytes) : P Token := do
  let t ← cur
  if t.kind ≠ k ∨ t.lit ≠ l then fail (.unexpected t [expected k [l]])
  else
    advance
    return t

/-- `mustConsumen` (parser.go:1650-1657). -/
def mustConsumen (k : TokenKind) (ls : List Bytes) : P Token := do
  let t ← cur
  match ← consumen k ls with
  | some t => return t
  | none => fail (.unexpected t [expected k ls])

/-- `skip1` (parser.go:1700-1708). -/
def skip1 (k : TokenKind) (l : Bytes) : P Bool := do
  let t ← cur
  if t.kind ≠ k ∨ t.lit ≠ l then return false
  else
    advance
    return true

/-- `p.unexpected(p.token, ...)` as a result. -/
def unexpectedCur {α : Type} (wants : List Bytes) : P α := do
  let t ← cur
  fail (.unexpected t wants)

/-- `for { x := body; list.Add(x); if brk { break } }`, then `list.Reverse()`. -/
def doWhileF {α : Type} (body : P α) (brk : P Bool) : Nat → P (List α)
  | 0 => outOfFuel
  | n+1 => do
    let a ← body
    if ← brk then return [a]
    let as ← doWhileF body brk n
    return a :: as

/-- The loop, with as much fuel as there are tokens. -/
def doWhile {α : Type} (body : P α) (brk : P Bool) : P (List α) := fun ts =>
  doWhileF body brk (ts.length + 1) ts

/-- `for !brk { x := body; list.Add(x) }`, then `list.Reverse()`. -/
def untilDoF {α : Type} (brk : P Bool) (body : P α) : Nat → P (List α)
  | 0 => outOfFuel
  | n+1 => do
    if ← brk then return []
    let a ← body
    let as ← untilDoF brk body n
    return a :: as

/-- The loop, with as much fuel as there are tokens. -/
def untilDo {α : Type} (brk : P Bool) (body : P α) : P (List α) := fun ts =>
  untilDoF brk body (ts.length + 1) ts

/-- Negation of a condition. -/
def notP (p : P Bool) : P Bool := do return !(← p)

/-- Disjunction of two peeks. -/
def orP (p q : P Bool) : P Bool := do
  if ← p then return true
  q

/-- `strconv.Atoi` on a 64-bit platform: an optional sign and at least one digit, within range. -/
def atoi (s : Bytes) : Option Int :=
  let (neg, ds) := match s with
    | 45 :: t => (true, t)
    | 43 :: t => (false, t)
    | t => (false, t)
  if ds.isEmpty || !ds.all (fun b => decide (48 ≤ b) && decide (b ≤ 57)) then none
  else
    let v : Nat := ds.foldl (fun a b => a * 10 + (b - 48)) 0
    if neg then (if v ≤ 2^63 then some (-(v : Int)) else none)
    else (if v < 2^63 then some (v : Int) else none)

section
variable (pf : Bytes → Option Nat)

/-- `parseValue` (parser.go:586-697). -/
def parseValue : Nat → P Value
  | 0 => outOfFuel
  | n+1 => do
    if ← skip1 .punctuator b!"$" then
      let t ← mustConsume0 .name
      return .var t.lit
    if let some t ← consume0 .intValue then
      match atoi t.lit with
      | none => fail (.atoi t.lit)
      | some i => return .int i
    else if let some t ← consume0 .floatValue then
      match pf t.lit with
      | none => fail (.parseFloat t.lit)
      | some f => return .float f
    else if let some t ← consume0 .stringValue then
      return .str t.lit
    else if let some t ← consumen .name [b!"true", b!"false"] then
      return .bool (t.lit == b!"true")
    else if ← skip1 .name b!"null" then
      return .null
    else if let some t ← consume0 .name then
      return .enum t.lit
    else if ← skip1 .punctuator b!"[" then
      let vs ← untilDo (skip1 .punctuator b!"]") (parseValue n)
      return .list vs
    else if ← skip1 .punctuator b!"{" then
      let fs ← untilDo (skip1 .punctuator b!"}") (do
        let t ← mustConsume0 .name
        let _ ← mustConsume1 .punctuator b!":"
        let v ← parseValue n
        return (t.lit, v))
      return .obj fs
    else fail .todo

/-- `parseDefaultValue` (parser.go:572-583). -/
def parseDefaultValue (n : Nat) : P (Option Value) := do
  if ← skip1 .punctuator b!"=" then
    let v ← parseValue pf n
    return some v
  else return none

/-- `parseArguments` (parser.go:538-569). -/
def parseArguments (n : Nat) : P (List Argument) := do
  if ← skip1 .punctuator b!"(" then
    untilDo (skip1 .punctuator b!")") (do
      let t ← mustConsume0 .name
      let _ ← mustConsume1 .punctuator b!":"
      let v ← parseValue pf n
      return (⟨t.lit, v⟩ : Argument))
  else return []

/-- `parseDirectives` (parser.go:352-384). -/
def parseDirectives (n : Nat) (loc : DirLoc) : P (List Directive) :=
  untilDo (notP (peek1 .punctuator b!"@")) (do
    let _ ← mustConsume1 .punctuator b!"@"
    let t ← mustConsume0 .name
    let args ← parseArguments pf n
    return (⟨t.lit, args, loc⟩ : Directive))

/-- `parseType` (parser.go:700-733).  An error inside the brackets is swallowed (708-711). -/
def parseType : Nat → P Ty
  | 0 => outOfFuel
  | n+1 => do
    if ← skip1 .punctuator b!"[" then
      fun ts => match parseType n ts with
        | .err _ r => .ok (.listNil false) r
        | .panic => .panic
        | .oof => .oof
        | .ok t r => (do
            let _ ← mustConsume1 .punctuator b!"]"
            return Ty.list t (← skip1 .punctuator b!"!")) r
    else do
      let t ← mustConsume0 .name
      return Ty.named t.lit (← skip1 .punctuator b!"!")

/-- `conType.Kind != ast.TypeKindNamed` (parser.go:292, 961, 1039). -/
def mustBeNamed (t : Ty) : P Unit :=
  match t with
  | .named _ _ => return ()
  | _ => unexpectedCur [b!"NamedType"]

/-- `parseTypeCondition` (parser.go:281-300). -/
def parseTypeCondition (n : Nat) : P Ty := do
  let _ ← mustConsume1 .name b!"on"
  let t ← parseType n
  mustBeNamed t
  return t

/-- `parseVariableDefinitions` (parser.go:303-349). -/
def parseVariableDefinitions (n : Nat) : P (List VarDef) := do
  if ← skip1 .punctuator b!"(" then
    let ds ← doWhile (do
      let _ ← mustConsume1 .punctuator b!"$"
      let t ← mustConsume0 .name
      let _ ← mustConsume1 .punctuator b!":"
      let ty ← parseType n
      let dv ← parseDefaultValue pf n
      return (⟨t.lit, ty, dv⟩ : VarDef)) (peek1 .punctuator b!")")
    let _ ← mustConsume1 .punctuator b!")"
    return ds
  else return []

/-- `parseFragmentSpread` (parser.go:437-455). -/
def parseFragmentSpread (n : Nat) : P Selection := do
  let t ← mustConsume0 .name
  let dirs ← parseDirectives pf n .fragmentSpread
  return .spread t.lit dirs

/-- `parseInlineFragment` (parser.go:458-486); `sel` is `parseSelectionSet(false)`. -/
def parseInlineFragment (n : Nat) (sel : P (List Selection)) : P Selection := do
  let cond ← (do
    if ← peek1 .name b!"on" then
      let c ← parseTypeCondition n
      return some c
    else return none)
  let dirs ← parseDirectives pf n .inlineFragment
  let sels ← sel
  return .inline cond dirs sels

/-- `parseField` (parser.go:489-535); `sel` is `parseSelectionSet(true)`. -/
def parseField (n : Nat) (sel : P (List Selection)) : P Selection := do
  let t ← mustConsume0 .name
  let (alias, name) ← (do
    if ← skip1 .punctuator b!":" then
      let t2 ← mustConsume0 .name
      return (t.lit, t2.lit)
    else return (([] : Bytes), t.lit))
  let args ← parseArguments pf n
  let dirs ← parseDirectives pf n .field
  let sels ← sel
  return .field alias name args dirs sels

/-- `parseSelectionSet` (parser.go:387-434). -/
def parseSelectionSet : Nat → Bool → P (List Selection)
  | 0, _ => outOfFuel
  | n+1, optional => do
    if ← skip1 .punctuator b!"{" then
      let sels ← doWhile (do
        if ← skip1 .punctuator b!"..." then
          let t ← cur
          if t.kind = .name ∧ t.lit ≠ b!"on" then parseFragmentSpread pf n
          else parseInlineFragment pf n (parseSelectionSet n false)
        else parseField pf n (parseSelectionSet n true))
        (orP (peek1 .punctuator b!"}") (peek0 .eof))
      let _ ← mustConsume1 .punctuator b!"}"
      return sels
    else if optional then return []
    else unexpectedCur [expected .punctuator [b!"{"]]

/-- `parseOperationType` (parser.go:223-237). -/
def parseOperationType : P OpKind := do
  let t ← mustConsumen .name [b!"query", b!"mutation", b!"subscription"]
  return if t.lit = b!"query" then .query else if t.lit = b!"mutation" then .mutation else .subscription

/-- The directive location of an operation (parser.go:186-195). -/
def OpKind.loc : OpKind → DirLoc
  | .query => .query | .mutation => .mutation | .subscription => .subscription

/-- `parseOperationDefinition` (parser.go:164-220). -/
def parseOperationDefinition (n : Nat) (shorthand : Bool) : P OpDef := do
  if shorthand then
    let sels ← parseSelectionSet pf n false
    return ⟨.query, [], [], [], sels⟩
  else
    let k ← parseOperationType
    let name ← consume0 .name
    let vars ← parseVariableDefinitions pf n
    let dirs ← parseDirectives pf n k.loc
    let sels ← parseSelectionSet pf n false
    return ⟨k, (name.map (·.lit)).getD [], vars, dirs, sels⟩

/-- `parseFragmentDefinition` (parser.go:240-278).  Returning `nil, nil` (no name after
`fragment`) makes `Parse` dereference nil (parser.go:50), so it is a panic here. -/
def parseFragmentDefinition (n : Nat) : P FragDef := do
  if ← skip1 .name b!"fragment" then
    match ← consume0 .name with
    | none => crash
    | some t =>
      if t.lit = b!"on" then unexpectedCur [expected .name [b!"!on"]]
      else
        let cond ← parseTypeCondition n
        let dirs ← parseDirectives pf n .fragmentDefinition
        let sels ← parseSelectionSet pf n false
        return ⟨t.lit, cond, dirs, sels⟩
  else crash

/-- One entry of `{ query: T ... }` (parser.go:946-968, 1024-1046). -/
def parseOperationTypeDefinition (n : Nat) : P OpTypeDef := do
  let k ← parseOperationType
  if ← skip1 .punctuator b!":" then
    let t ← parseType n
    mustBeNamed t
    return ⟨t, k⟩
  else unexpectedCur [expected .punctuator [b!":"]]

/-- `parseOperationTypeDefinitions` (parser.go:1017-1059), and the same loop in
`parseSchemaDefinition` (940-978). -/
def parseOperationTypeDefinitions (n : Nat) : P (List OpTypeDef) := do
  if ← skip1 .punctuator b!"{" then
    let ops ← doWhile (parseOperationTypeDefinition n) (orP (peek1 .punctuator b!"}") (peek0 .eof))
    let _ ← mustConsume1 .punctuator b!"}"
    return ops
  else unexpectedCur [expected .punctuator [b!"{"]]

/-- `parseSchemaDefinition` (parser.go:930-984). -/
def parseSchemaDefinition (n : Nat) : P SchemaDef := do
  if ← skip1 .name b!"schema" then
    let dirs ← parseDirectives pf n .schema
    let ops ← parseOperationTypeDefinitions n
    return ⟨dirs, ops⟩
  else unexpectedCur [expected .name [b!"schema"]]

/-- `parseSchemaExtension` (parser.go:988-1015). -/
def parseSchemaExtension (n : Nat) : P SchemaDef := do
  if ← skip1 .name b!"schema" then
    let dirs ← parseDirectives pf n .schema
    let ops ← (do
      if ← peek1 .punctuator b!"{" then parseOperationTypeDefinitions n
      else return [])
    if dirs.length = 0 ∧ ops.length = 0 then unexpectedCur []
    else return ⟨dirs, ops⟩
  else unexpectedCur [expected .name [b!"schema"]]

/-- `parseInputValueDefinition` (parser.go:1091-1132). -/
def parseInputValueDefinition (n : Nat) (loc : DirLoc) : P InputVal := do
  let desc ← consume0 .stringValue
  let t ← mustConsume0 .name
  if ← skip1 .punctuator b!":" then
    let ty ← parseType n
    let dv ← parseDefaultValue pf n
    let dirs ← parseDirectives pf n loc
    return ⟨(desc.map (·.lit)).getD [], t.lit, ty, dirs, dv⟩
  else unexpectedCur [expected .punctuator [b!":"]]

/-- `parseArgumentsDefinition` (parser.go:1062-1088). -/
def parseArgumentsDefinition (n : Nat) : P (List InputVal) := do
  if ← skip1 .punctuator b!"(" then
    let ds ← doWhile (parseInputValueDefinition pf n .argumentDefinition)
      (orP (peek1 .punctuator b!")") (peek0 .eof))
    let _ ← mustConsume1 .punctuator b!")"
    return ds
  else return []

/-- `directiveLocations` (parser.go:1527-1547). -/
def directiveLocations : List Bytes := DirLoc.all.map DirLoc.name

/-- `parseDirectiveLocations` (parser.go:1550-1569).  The error of `mustConsumen` is replaced by an equal
one. -/
def parseDirectiveLocations : P Nat := do
  let _ ← skip1 .punctuator b!"|"
  let ls ← doWhile (mustConsumen .name directiveLocations) (notP (skip1 .punctuator b!"|"))
  return ls.foldl (fun a t => a ||| locByName t.lit) 0

/-- `parseDirectiveDefinition` (parser.go:1135-1169). -/
def parseDirectiveDefinition (n : Nat) (desc : Bytes) : P DirDef := do
  if ← skip1 .name b!"directive" then
    if ← skip1 .punctuator b!"@" then
      let t ← mustConsume0 .name
      let args ← parseArgumentsDefinition pf n
      if ← skip1 .name b!"on" then
        let locs ← parseDirectiveLocations
        return ⟨desc, t.lit, args, locs⟩
      else unexpectedCur [expected .name [b!"on"]]
    else unexpectedCur [expected .punctuator [b!"@"]]
  else crash

/-- `parseImplementsInterfaces` (parser.go:1347-1370). -/
def parseImplementsInterfaces (n : Nat) : P (List Ty) := do
  if ← skip1 .name b!"implements" then
    let _ ← skip1 .punctuator b!"&"
    doWhile (parseType n) (notP (skip1 .punctuator b!"&"))
  else return []

/-- `parseFieldsDefinition` (parser.go:1373-1430). -/
def parseFieldsDefinition (n : Nat) : P (List FieldDef) := do
  if ← skip1 .punctuator b!"{" then
    doWhile (do
      let desc ← consume0 .stringValue
      let t ← mustConsume0 .name
      let args ← parseArgumentsDefinition pf n
      if ← skip1 .punctuator b!":" then
        let ty ← parseType n
        let dirs ← parseDirectives pf n .fieldDefinition
        return (⟨(desc.map (·.lit)).getD [], t.lit, args, ty, dirs⟩ : FieldDef)
      else unexpectedCur [expected .punctuator [b!":"]])
      (skip1 .punctuator b!"}")
  else return []

/-- `parseUnionMemberTypes` (parser.go:1433-1456). -/
def parseUnionMemberTypes (n : Nat) : P (List Ty) := do
  if ← skip1 .punctuator b!"=" then
    let _ ← skip1 .punctuator b!"|"
    doWhile (parseType n) (notP (skip1 .punctuator b!"|"))
  else return []

/-- `parseEnumValuesDefinition` (parser.go:1459-1501). -/
def parseEnumValuesDefinition (n : Nat) : P (List EnumVal) := do
  if ← skip1 .punctuator b!"{" then
    doWhile (do
      let desc ← consume0 .stringValue
      let t ← mustConsume0 .name
      if t.lit = b!"false" ∨ t.lit = b!"true" ∨ t.lit = b!"null" then
        fail (.unexpected t [expected .name [b!"valid enum value"]])
      else
        let dirs ← parseDirectives pf n .enumValue
        return (⟨(desc.map (·.lit)).getD [], dirs, t.lit⟩ : EnumVal))
      (skip1 .punctuator b!"}")
  else return []

/-- `parseInputFieldsDefinition` (parser.go:1504-1525). -/
def parseInputFieldsDefinition (n : Nat) : P (List InputVal) := do
  if ← skip1 .punctuator b!"{" then
    doWhile (parseInputValueDefinition pf n .inputFieldDefinition) (skip1 .punctuator b!"}")
  else return []

/-- `parseScalarTypeDefinition`, `parseObjectDefinition`, `parseInterfaceDefinition`,
`parseUnionDefinition`, `parseEnumDefinition`, `parseInputObjectDefinition` (parser.go:1197-1344), by the
kind; the description is set by the caller (parser.go:868-871). -/
def parseTypeBody (n : Nat) (desc : Bytes) (k : TypeKind) : P TypeDef := do
  let t ← mustConsume0 .name
  match k with
  | .scalar =>
    let dirs ← parseDirectives pf n .scalar
    return { desc, name := t.lit, kind := .scalar, dirs }
  | .object =>
    let ifaces ← parseImplementsInterfaces n
    let dirs ← parseDirectives pf n .object
    let fields ← parseFieldsDefinition pf n
    return { desc, name := t.lit, kind := .object, ifaces, dirs, fields }
  | .interface =>
    let dirs ← parseDirectives pf n .interface
    let fields ← parseFieldsDefinition pf n
    return { desc, name := t.lit, kind := .interface, dirs, fields }
  | .union =>
    let dirs ← parseDirectives pf n .union
    let members ← parseUnionMemberTypes n
    return { desc, name := t.lit, kind := .union, dirs, members }
  | .enum =>
    let dirs ← parseDirectives pf n .enum
    let values ← parseEnumValuesDefinition pf n
    return { desc, name := t.lit, kind := .enum, dirs, values }
  | .inputObject =>
    let dirs ← parseDirectives pf n .inputObject
    let inputs ← parseInputFieldsDefinition pf n
    return { desc, name := t.lit, kind := .inputObject, dirs, inputs }

/-- The keyword of a kind of type (parser.go:861, 1178-1191). -/
def TypeKind.keyword : TypeKind → Bytes
  | .scalar => b!"scalar" | .object => b!"type" | .interface => b!"interface" | .union => b!"union"
  | .enum => b!"enum" | .inputObject => b!"input"

/-- All kinds of types. -/
def TypeKind.all : List TypeKind := [.scalar, .object, .interface, .union, .enum, .inputObject]

/-- The `switch` over the keyword (parser.go:760-773, 1178-1191). -/
def kindOf (l : Bytes) : Option TypeKind := TypeKind.all.find? (fun k => k.keyword == l)

/-- `parseTypeDefinition` (parser.go:1172-1194).  `nil, nil` for an unknown keyword would be
dereferenced later. -/
def parseTypeDefinition (n : Nat) (desc : Bytes) : P TypeDef := do
  let t ← mustConsume0 .name
  match kindOf t.lit with
  | some k => parseTypeBody pf n desc k
  | none => crash

/-- `parseTypeExtension` (parser.go:737-829).  An unknown keyword (which cannot be: 905) is a scalar
extension with location 0 in the code; the model panics. -/
def parseTypeExtension (n : Nat) : P TypeDef := do
  let kt ← mustConsume0 .name
  let t ← mustConsume0 .name
  let ifaces ← (do
    if kt.lit = b!"type" then
      if ← peek1 .name b!"implements" then parseImplementsInterfaces n
      else return []
    else return [])
  match kindOf kt.lit with
  | none => crash
  | some .scalar =>
    let dirs ← parseDirectives pf n .scalar
    return { name := t.lit, kind := .scalar, ifaces, dirs }
  | some .object =>
    let dirs ← parseDirectives pf n .object
    let fields ← parseFieldsDefinition pf n
    return { name := t.lit, kind := .object, ifaces, dirs, fields }
  | some .interface =>
    let dirs ← parseDirectives pf n .interface
    let fields ← parseFieldsDefinition pf n
    return { name := t.lit, kind := .interface, ifaces, dirs, fields }
  | some .union =>
    let dirs ← parseDirectives pf n .union
    let members ← parseUnionMemberTypes n
    return { name := t.lit, kind := .union, ifaces, dirs, members }
  | some .enum =>
    let dirs ← parseDirectives pf n .enum
    let values ← parseEnumValuesDefinition pf n
    return { name := t.lit, kind := .enum, ifaces, dirs, values }
  | some .inputObject =>
    let dirs ← parseDirectives pf n .inputObject
    let inputs ← parseInputFieldsDefinition pf n
    return { name := t.lit, kind := .inputObject, ifaces, dirs, inputs }

/-- The keywords of type definitions (parser.go:861, 905). -/
def typeKeywords : List Bytes := TypeKind.all.map TypeKind.keyword

/-- `parseTypeSystemDefinition` (parser.go:832-881).  An empty definition (880) cannot be returned; it would be
a schema definition that is nil. -/
def parseTypeSystemDefinition (n : Nat) (desc : Bytes) : P Body := do
  if ← peek1 .name b!"schema" then
    let s ← parseSchemaDefinition pf n
    return .schema s
  else if ← peek1 .name b!"directive" then
    let d ← parseDirectiveDefinition pf n desc
    return .directive d
  else if ← peekn .name typeKeywords then
    let t ← parseTypeDefinition pf n desc
    return .type t
  else crash

/-- `parseTypeSystemExtension` (parser.go:885-927). -/
def parseTypeSystemExtension (n : Nat) : P Body := do
  if ← skip1 .name b!"extend" then
    if ← peek1 .name b!"schema" then
      let s ← parseSchemaExtension pf n
      return .schemaExt s
    else if ← peekn .name typeKeywords then
      let t ← parseTypeExtension pf n
      return .typeExt t
    else unexpectedCur [expected .name (b!"schema" :: typeKeywords)]
  else unexpectedCur [expected .name [b!"extend"]]

/-- `parseDefinition` (parser.go:91-161), without the location. -/
def parseDefinitionBody (n : Nat) : P Body := do
  let t ← cur
  let shorthand := t.lit == b!"{"
  if ← orP (peekn .name [b!"query", b!"mutation", b!"subscription"]) (peek1 .punctuator b!"{") then
    let o ← parseOperationDefinition pf n shorthand
    return .op o
  else if ← peek1 .name b!"fragment" then
    let f ← parseFragmentDefinition pf n
    return .frag f
  else if ← peek1 .name b!"extend" then
    parseTypeSystemExtension pf n
  else
    let desc ← consume0 .stringValue
    let d := (desc.map (·.lit)).getD []
    let lits := typeKeywords ++ [b!"directive"] ++ (if d = [] then [b!"schema"] else [])
    if ← peekn .name lits then parseTypeSystemDefinition pf n d
    else unexpectedCur [expected .name [b!"query", b!"mutation", b!"fragment"], expected .punctuator [b!"{"]]

/-- `parseDefinition` (parser.go:91-161). -/
def parseDefinition (n : Nat) : P Definition := do
  let t ← cur
  let b ← parseDefinitionBody pf n
  return ⟨⟨t.line, t.col⟩, b⟩

/-- The loop of `Parse` (parser.go:38-78): stops at EOF, fails at an Illegal token. -/
def parseDefs (n : Nat) : P (List Definition) :=
  doWhile (do
      let d ← parseDefinition pf n
      if ← peek0 .illegal then unexpectedCur []
      else return d)
    (peek0 .eof)

/-- The body of the loop of `Parse` as far as the document is concerned (parser.go:44-69): the definition is put in front
and the counters are updated; the second component is the map `typeExtensions`. -/
def addDef (st : Document × List Bytes) (d : Definition) : Document × List Bytes :=
  let (doc, exts) := st
  let doc := { doc with defs := d :: doc.defs }
  match d.body with
  | .op _ => ({ doc with operations := doc.operations + 1 }, exts)
  | .frag _ => ({ doc with fragments := doc.fragments + 1 }, exts)
  | .directive _ => ({ doc with directives := doc.directives + 1 }, exts)
  | .schema _ => ({ doc with schemas := doc.schemas + 1 }, exts)
  | .type _ => ({ doc with types := doc.types + 1 }, exts)
  | .schemaExt _ => ({ doc with schemaExts := doc.schemaExts + 1 }, exts)
  | .typeExt t => (doc, if exts.contains t.name then exts else t.name :: exts)

/-- The document made of the definitions (parser.go:44-69, 80-87).  Simplification: the
counting is done after the loop over the definitions and not in it. -/
def mkDocument (defs : List Definition) : Document :=
  let (doc, exts) := defs.foldl addDef ({}, [])
  { doc with typeExts := exts.length, defs := doc.defs.reverse }

/-- Outcome of `Parse`. -/
inductive ParseOut where
  | ok (d : Document)
  | err (e : PErr)
  | panic
  | oof
  deriving Repr

/-- `Parse` over the tokens (parser.go:27-88). -/
def parseTokens (ts : List Token) : ParseOut :=
  match parseDefs pf (ts.length + 1) ts with
  | .ok defs _ => .ok (mkDocument defs)
  | .err e _ => .err e
  | .panic => .panic
  | .oof => .oof

/-- `NewParser(input).Parse()`. -/
def parse (input : Bytes) : ParseOut :=
  match tokens input with
  | .ret ts => parseTokens pf ts
  | .panic => .panic
  | .oof => .oof

end

end GQL
