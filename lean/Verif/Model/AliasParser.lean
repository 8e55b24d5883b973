/-
The parser (language/parser.go) on tokens whose strings are windows on the input buffer.

The functions follow those of Model/Parser one by one; they decide on what a token reads while the input `inp` is
in the buffer, and put the string itself, window or not, into the document.  The text of
an error is formatted when the error is made (language/parser.go:1738-1766).  Simplification: the literal
in an error of `strconv` is taken as copied, too, as it is by recent versions of Go.
-/
import Verif.Model.AliasAst
import Verif.Model.Parser

namespace GQL

/-- Outcome of a parser function. -/
inductive ResA (α : Type) where
  | ok (a : α) (rest : List ATok)
  | err (e : PErr) (rest : List ATok)
  | panic
  | oof
  deriving Repr

/-- A parser function: state in, result and state out. -/
def PA (α : Type) := List ATok → ResA α

/-- Go's early return on error. -/
def PA.bind {α β : Type} (p : PA α) (f : α → PA β) : PA β := fun ts =>
  match p ts with
  | .ok a r => f a r
  | .err e r => .err e r
  | .panic => .panic
  | .oof => .oof

instance : Monad PA where
  pure a := fun ts => .ok a ts
  bind := PA.bind

/-- The current token.  The list is never empty. -/
def hdA (ts : List ATok) : ATok := ts.headD ⟨.eof, .own [], 0, 0⟩

/-- `p.token`. -/
def curA : PA ATok := fun ts => .ok (hdA ts) ts

/-- `p.token = p.lexer.Scan()`. -/
def advanceA : PA Unit := fun ts => .ok () ts.tail

/-- Returning an error. -/
def failA {α : Type} (e : PErr) : PA α := fun ts => .err e ts

/-- A nil dereference. -/
def crashA {α : Type} : PA α := fun _ => .panic

/-- Out of fuel. -/
def outOfFuelA {α : Type} : PA α := fun _ => .oof

/-- `peek0` (parser.go:1660-1662). -/
def peek0A (k : TokenKind) : PA Bool := do return (← curA).kind == k

/-- `peek1` (parser.go:1665-1667). -/
def peek1A (inp : Bytes) (k : TokenKind) (l : Bytes) : PA Bool := do
  let t ← curA
  return t.kind == k && t.lit.value inp == l

/-- `peekn` (parser.go:1670-1686). -/
def peeknA (inp : Bytes) (k : TokenKind) (ls : List Bytes) : PA Bool := do
  let t ← curA
  if t.kind ≠ k then return false
  if ls.isEmpty then return true
  return ls.contains (t.lit.value inp)

/-- `consume0` (parser.go:1576-1585). -/
def consume0A (k : TokenKind) : PA (Option ATok) := do
  let t ← curA
  if t.kind = k then
    advanceA
    return some t
  else return none

/-- `consumen` (parser.go:1600-1621). -/
def consumenA (inp : Bytes) (k : TokenKind) (ls : List Bytes) : PA (Option ATok) := do
  let t ← curA
  if t.kind ≠ k then return none
  if ls.isEmpty then
    advanceA
    return some t
  if ls.contains (t.lit.value inp) then
    advanceA
    return some t
  return none

/-- `mustConsume0` (parser.go:1624-1634). -/
def mustConsume0A (inp : Bytes) (k : TokenKind) : PA ATok := do
  let t ← curA
  if t.kind ≠ k then failA (.unexpected (t.read inp) [expected k []])
  else
    advanceA
    return t

/-- `mustConsume1` (parser.go:1637-1647). -/
def mustConsume1A (inp : Bytes) (k : TokenKind) (l : Bytes) : PA ATok := do
  let t ← curA
  if t.kind ≠ k ∨ t.lit.value inp ≠ l then failA (.unexpected (t.read inp) [expected k [l]])
  else
    advanceA
    return t

/-- `mustConsumen` (parser.go:1650-1657). -/
def mustConsumenA (inp : Bytes) (k : TokenKind) (ls : List Bytes) : PA ATok := do
  let t ← curA
  match ← consumenA inp k ls with
  | some t => return t
  | none => failA (.unexpected (t.read inp) [expected k ls])

/-- `skip1` (parser.go:1700-1708). -/
def skip1A (inp : Bytes) (k : TokenKind) (l : Bytes) : PA Bool := do
  let t ← curA
  if t.kind ≠ k ∨ t.lit.value inp ≠ l then return false
  else
    advanceA
    return true

/-- `p.unexpected(p.token, ...)` as a result. -/
def unexpectedCurA {α : Type} (inp : Bytes) (wants : List Bytes) : PA α := do
  let t ← curA
  failA (.unexpected (t.read inp) wants)

/-- `for { x := body; list.Add(x); if brk { break } }`, then `list.Reverse()`. -/
def doWhileFA {α : Type} (body : PA α) (brk : PA Bool) : Nat → PA (List α)
  | 0 => outOfFuelA
  | n+1 => do
    let a ← body
    if ← brk then return [a]
    let as ← doWhileFA body brk n
    return a :: as

/-- The loop, with as much fuel as there are tokens. -/
def doWhileA {α : Type} (body : PA α) (brk : PA Bool) : PA (List α) := fun ts =>
  doWhileFA body brk (ts.length + 1) ts

/-- `for !brk { x := body; list.Add(x) }`, then `list.Reverse()`. -/
def untilDoFA {α : Type} (brk : PA Bool) (body : PA α) : Nat → PA (List α)
  | 0 => outOfFuelA
  | n+1 => do
    if ← brk then return []
    let a ← body
    let as ← untilDoFA brk body n
    return a :: as

/-- The loop, with as much fuel as there are tokens. -/
def untilDoA {α : Type} (brk : PA Bool) (body : PA α) : PA (List α) := fun ts =>
  untilDoFA brk body (ts.length + 1) ts

/-- Negation of a condition. -/
def notPA (p : PA Bool) : PA Bool := do return !(← p)

/-- Disjunction of two peeks. -/
def orPA (p q : PA Bool) : PA Bool := do
  if ← p then return true
  q

section
variable (inp : Bytes) (pf : Bytes → Option Nat)

/-- `parseValue` (parser.go:586-697). -/
def parseValueA : Nat → PA AValue
  | 0 => outOfFuelA
  | n+1 => do
    if ← skip1A inp .punctuator b!"$" then
      let t ← mustConsume0A inp .name
      return .var t.lit
    if let some t ← consume0A .intValue then
      match atoi (t.lit.value inp) with
      | none => failA (.atoi (t.lit.value inp))
      | some i => return .int i
    else if let some t ← consume0A .floatValue then
      match pf (t.lit.value inp) with
      | none => failA (.parseFloat (t.lit.value inp))
      | some f => return .float f
    else if let some t ← consume0A .stringValue then
      return .str t.lit
    else if let some t ← consumenA inp .name [b!"true", b!"false"] then
      return .bool (t.lit.value inp == b!"true")
    else if ← skip1A inp .name b!"null" then
      return .null
    else if let some t ← consume0A .name then
      return .enum t.lit
    else if ← skip1A inp .punctuator b!"[" then
      let vs ← untilDoA (skip1A inp .punctuator b!"]") (parseValueA n)
      return .list vs
    else if ← skip1A inp .punctuator b!"{" then
      let fs ← untilDoA (skip1A inp .punctuator b!"}") (do
        let t ← mustConsume0A inp .name
        let _ ← mustConsume1A inp .punctuator b!":"
        let v ← parseValueA n
        return (t.lit, v))
      return .obj fs
    else failA .todo

/-- `parseDefaultValue` (parser.go:572-583). -/
def parseDefaultValueA (n : Nat) : PA (Option AValue) := do
  if ← skip1A inp .punctuator b!"=" then
    let v ← parseValueA inp pf n
    return some v
  else return none

/-- `parseArguments` (parser.go:538-569). -/
def parseArgumentsA (n : Nat) : PA (List AArgument) := do
  if ← skip1A inp .punctuator b!"(" then
    untilDoA (skip1A inp .punctuator b!")") (do
      let t ← mustConsume0A inp .name
      let _ ← mustConsume1A inp .punctuator b!":"
      let v ← parseValueA inp pf n
      return (⟨t.lit, v⟩ : AArgument))
  else return []

/-- `parseDirectives` (parser.go:352-384). -/
def parseDirectivesA (n : Nat) (loc : DirLoc) : PA (List ADirective) :=
  untilDoA (notPA (peek1A inp .punctuator b!"@")) (do
    let _ ← mustConsume1A inp .punctuator b!"@"
    let t ← mustConsume0A inp .name
    let args ← parseArgumentsA inp pf n
    return (⟨t.lit, args, loc⟩ : ADirective))

/-- `parseType` (parser.go:700-733).  An error inside the brackets is swallowed (708-711). -/
def parseTypeA : Nat → PA ATy
  | 0 => outOfFuelA
  | n+1 => do
    if ← skip1A inp .punctuator b!"[" then
      fun ts => match parseTypeA n ts with
        | .err _ r => .ok (.listNil false) r
        | .panic => .panic
        | .oof => .oof
        | .ok t r => (do
            let _ ← mustConsume1A inp .punctuator b!"]"
            return ATy.list t (← skip1A inp .punctuator b!"!")) r
    else do
      let t ← mustConsume0A inp .name
      return ATy.named t.lit (← skip1A inp .punctuator b!"!")

/-- `conType.Kind != ast.TypeKindNamed` (parser.go:292, 961, 1039). -/
def mustBeNamedA (t : ATy) : PA Unit :=
  match t with
  | .named _ _ => return ()
  | _ => unexpectedCurA inp [b!"NamedType"]

/-- `parseTypeCondition` (parser.go:281-300). -/
def parseTypeConditionA (n : Nat) : PA ATy := do
  let _ ← mustConsume1A inp .name b!"on"
  let t ← parseTypeA inp n
  mustBeNamedA inp t
  return t

/-- `parseVariableDefinitions` (parser.go:303-349). -/
def parseVariableDefinitionsA (n : Nat) : PA (List AVarDef) := do
  if ← skip1A inp .punctuator b!"(" then
    let ds ← doWhileA (do
      let _ ← mustConsume1A inp .punctuator b!"$"
      let t ← mustConsume0A inp .name
      let _ ← mustConsume1A inp .punctuator b!":"
      let ty ← parseTypeA inp n
      let dv ← parseDefaultValueA inp pf n
      return (⟨t.lit, ty, dv⟩ : AVarDef)) (peek1A inp .punctuator b!")")
    let _ ← mustConsume1A inp .punctuator b!")"
    return ds
  else return []

/-- `parseFragmentSpread` (parser.go:437-455). -/
def parseFragmentSpreadA (n : Nat) : PA ASelection := do
  let t ← mustConsume0A inp .name
  let dirs ← parseDirectivesA inp pf n .fragmentSpread
  return .spread t.lit dirs

/-- `parseInlineFragment` (parser.go:458-486); `sel` is `parseSelectionSet(false)`. -/
def parseInlineFragmentA (n : Nat) (sel : PA (List ASelection)) : PA ASelection := do
  let cond ← (do
    if ← peek1A inp .name b!"on" then
      let c ← parseTypeConditionA inp n
      return some c
    else return none)
  let dirs ← parseDirectivesA inp pf n .inlineFragment
  let sels ← sel
  return .inline cond dirs sels

/-- `parseField` (parser.go:489-535); `sel` is `parseSelectionSet(true)`. -/
def parseFieldA (n : Nat) (sel : PA (List ASelection)) : PA ASelection := do
  let t ← mustConsume0A inp .name
  let (alias, name) ← (do
    if ← skip1A inp .punctuator b!":" then
      let t2 ← mustConsume0A inp .name
      return (t.lit, t2.lit)
    else return ((Str.own []), t.lit))
  let args ← parseArgumentsA inp pf n
  let dirs ← parseDirectivesA inp pf n .field
  let sels ← sel
  return .field alias name args dirs sels

/-- `parseSelectionSet` (parser.go:387-434). -/
def parseSelectionSetA : Nat → Bool → PA (List ASelection)
  | 0, _ => outOfFuelA
  | n+1, optional => do
    if ← skip1A inp .punctuator b!"{" then
      let sels ← doWhileA (do
        if ← skip1A inp .punctuator b!"..." then
          let t ← curA
          if t.kind = .name ∧ t.lit.value inp ≠ b!"on" then parseFragmentSpreadA inp pf n
          else parseInlineFragmentA inp pf n (parseSelectionSetA n false)
        else parseFieldA inp pf n (parseSelectionSetA n true))
        (orPA (peek1A inp .punctuator b!"}") (peek0A .eof))
      let _ ← mustConsume1A inp .punctuator b!"}"
      return sels
    else if optional then return []
    else unexpectedCurA inp [expected .punctuator [b!"{"]]

/-- `parseOperationType` (parser.go:223-237). -/
def parseOperationTypeA : PA OpKind := do
  let t ← mustConsumenA inp .name [b!"query", b!"mutation", b!"subscription"]
  return if t.lit.value inp = b!"query" then .query else if t.lit.value inp = b!"mutation" then .mutation else .subscription

/-- `parseOperationDefinition` (parser.go:164-220). -/
def parseOperationDefinitionA (n : Nat) (shorthand : Bool) : PA AOpDef := do
  if shorthand then
    let sels ← parseSelectionSetA inp pf n false
    return ⟨.query, .own [], [], [], sels⟩
  else
    let k ← parseOperationTypeA inp
    let name ← consume0A .name
    let vars ← parseVariableDefinitionsA inp pf n
    let dirs ← parseDirectivesA inp pf n k.loc
    let sels ← parseSelectionSetA inp pf n false
    return ⟨k, (name.map (·.lit)).getD (.own []), vars, dirs, sels⟩

/-- `parseFragmentDefinition` (parser.go:240-278).  Returning `nil, nil` (no name after
`fragment`) makes `Parse` dereference nil (parser.go:50), so it is a panic here. -/
def parseFragmentDefinitionA (n : Nat) : PA AFragDef := do
  if ← skip1A inp .name b!"fragment" then
    match ← consume0A .name with
    | none => crashA
    | some t =>
      if t.lit.value inp = b!"on" then unexpectedCurA inp [expected .name [b!"!on"]]
      else
        let cond ← parseTypeConditionA inp n
        let dirs ← parseDirectivesA inp pf n .fragmentDefinition
        let sels ← parseSelectionSetA inp pf n false
        return ⟨t.lit, cond, dirs, sels⟩
  else crashA

/-- One entry of `{ query: T ... }` (parser.go:946-968, 1024-1046). -/
def parseOperationTypeDefinitionA (n : Nat) : PA AOpTypeDef := do
  let k ← parseOperationTypeA inp
  if ← skip1A inp .punctuator b!":" then
    let t ← parseTypeA inp n
    mustBeNamedA inp t
    return ⟨t, k⟩
  else unexpectedCurA inp [expected .punctuator [b!":"]]

/-- `parseOperationTypeDefinitions` (parser.go:1017-1059), and the same loop in
`parseSchemaDefinition` (940-978). -/
def parseOperationTypeDefinitionsA (n : Nat) : PA (List AOpTypeDef) := do
  if ← skip1A inp .punctuator b!"{" then
    let ops ← doWhileA (parseOperationTypeDefinitionA inp n) (orPA (peek1A inp .punctuator b!"}") (peek0A .eof))
    let _ ← mustConsume1A inp .punctuator b!"}"
    return ops
  else unexpectedCurA inp [expected .punctuator [b!"{"]]

/-- `parseSchemaDefinition` (parser.go:930-984). -/
def parseSchemaDefinitionA (n : Nat) : PA ASchemaDef := do
  if ← skip1A inp .name b!"schema" then
    let dirs ← parseDirectivesA inp pf n .schema
    let ops ← parseOperationTypeDefinitionsA inp n
    return ⟨dirs, ops⟩
  else unexpectedCurA inp [expected .name [b!"schema"]]

/-- `parseSchemaExtension` (parser.go:988-1015). -/
def parseSchemaExtensionA (n : Nat) : PA ASchemaDef := do
  if ← skip1A inp .name b!"schema" then
    let dirs ← parseDirectivesA inp pf n .schema
    let ops ← (do
      if ← peek1A inp .punctuator b!"{" then parseOperationTypeDefinitionsA inp n
      else return [])
    if dirs.length = 0 ∧ ops.length = 0 then unexpectedCurA inp []
    else return ⟨dirs, ops⟩
  else unexpectedCurA inp [expected .name [b!"schema"]]

/-- `parseInputValueDefinition` (parser.go:1091-1132). -/
def parseInputValueDefinitionA (n : Nat) (loc : DirLoc) : PA AInputVal := do
  let desc ← consume0A .stringValue
  let t ← mustConsume0A inp .name
  if ← skip1A inp .punctuator b!":" then
    let ty ← parseTypeA inp n
    let dv ← parseDefaultValueA inp pf n
    let dirs ← parseDirectivesA inp pf n loc
    return ⟨(desc.map (·.lit)).getD (.own []), t.lit, ty, dirs, dv⟩
  else unexpectedCurA inp [expected .punctuator [b!":"]]

/-- `parseArgumentsDefinition` (parser.go:1062-1088). -/
def parseArgumentsDefinitionA (n : Nat) : PA (List AInputVal) := do
  if ← skip1A inp .punctuator b!"(" then
    let ds ← doWhileA (parseInputValueDefinitionA inp pf n .argumentDefinition)
      (orPA (peek1A inp .punctuator b!")") (peek0A .eof))
    let _ ← mustConsume1A inp .punctuator b!")"
    return ds
  else return []

/-- `parseDirectiveLocations` (parser.go:1550-1569).  The error of `mustConsumen` is replaced by an equal
one. -/
def parseDirectiveLocationsA : PA Nat := do
  let _ ← skip1A inp .punctuator b!"|"
  let ls ← doWhileA (mustConsumenA inp .name directiveLocations) (notPA (skip1A inp .punctuator b!"|"))
  return ls.foldl (fun a t => a ||| locByName (t.lit.value inp)) 0

/-- `parseDirectiveDefinition` (parser.go:1135-1169). -/
def parseDirectiveDefinitionA (n : Nat) (desc : Str) : PA ADirDef := do
  if ← skip1A inp .name b!"directive" then
    if ← skip1A inp .punctuator b!"@" then
      let t ← mustConsume0A inp .name
      let args ← parseArgumentsDefinitionA inp pf n
      if ← skip1A inp .name b!"on" then
        let locs ← parseDirectiveLocationsA inp
        return ⟨desc, t.lit, args, locs⟩
      else unexpectedCurA inp [expected .name [b!"on"]]
    else unexpectedCurA inp [expected .punctuator [b!"@"]]
  else crashA

/-- `parseImplementsInterfaces` (parser.go:1347-1370). -/
def parseImplementsInterfacesA (n : Nat) : PA (List ATy) := do
  if ← skip1A inp .name b!"implements" then
    let _ ← skip1A inp .punctuator b!"&"
    doWhileA (parseTypeA inp n) (notPA (skip1A inp .punctuator b!"&"))
  else return []

/-- `parseFieldsDefinition` (parser.go:1373-1430). -/
def parseFieldsDefinitionA (n : Nat) : PA (List AFieldDef) := do
  if ← skip1A inp .punctuator b!"{" then
    doWhileA (do
      let desc ← consume0A .stringValue
      let t ← mustConsume0A inp .name
      let args ← parseArgumentsDefinitionA inp pf n
      if ← skip1A inp .punctuator b!":" then
        let ty ← parseTypeA inp n
        let dirs ← parseDirectivesA inp pf n .fieldDefinition
        return (⟨(desc.map (·.lit)).getD (.own []), t.lit, args, ty, dirs⟩ : AFieldDef)
      else unexpectedCurA inp [expected .punctuator [b!":"]])
      (skip1A inp .punctuator b!"}")
  else return []

/-- `parseUnionMemberTypes` (parser.go:1433-1456). -/
def parseUnionMemberTypesA (n : Nat) : PA (List ATy) := do
  if ← skip1A inp .punctuator b!"=" then
    let _ ← skip1A inp .punctuator b!"|"
    doWhileA (parseTypeA inp n) (notPA (skip1A inp .punctuator b!"|"))
  else return []

/-- `parseEnumValuesDefinition` (parser.go:1459-1501). -/
def parseEnumValuesDefinitionA (n : Nat) : PA (List AEnumVal) := do
  if ← skip1A inp .punctuator b!"{" then
    doWhileA (do
      let desc ← consume0A .stringValue
      let t ← mustConsume0A inp .name
      if t.lit.value inp = b!"false" ∨ t.lit.value inp = b!"true" ∨ t.lit.value inp = b!"null" then
        failA (.unexpected (t.read inp) [expected .name [b!"valid enum value"]])
      else
        let dirs ← parseDirectivesA inp pf n .enumValue
        return (⟨(desc.map (·.lit)).getD (.own []), dirs, t.lit⟩ : AEnumVal))
      (skip1A inp .punctuator b!"}")
  else return []

/-- `parseInputFieldsDefinition` (parser.go:1504-1525). -/
def parseInputFieldsDefinitionA (n : Nat) : PA (List AInputVal) := do
  if ← skip1A inp .punctuator b!"{" then
    doWhileA (parseInputValueDefinitionA inp pf n .inputFieldDefinition) (skip1A inp .punctuator b!"}")
  else return []

/-- `parseScalarTypeDefinition`, `parseObjectDefinition`, `parseInterfaceDefinition`,
`parseUnionDefinition`, `parseEnumDefinition`, `parseInputObjectDefinition` (parser.go:1197-1344), by the
kind; the description is set by the caller (parser.go:868-871). -/
def parseTypeBodyA (n : Nat) (desc : Str) (k : TypeKind) : PA ATypeDef := do
  let t ← mustConsume0A inp .name
  match k with
  | .scalar =>
    let dirs ← parseDirectivesA inp pf n .scalar
    return { desc, name := t.lit, kind := .scalar, dirs }
  | .object =>
    let ifaces ← parseImplementsInterfacesA inp n
    let dirs ← parseDirectivesA inp pf n .object
    let fields ← parseFieldsDefinitionA inp pf n
    return { desc, name := t.lit, kind := .object, ifaces, dirs, fields }
  | .interface =>
    let dirs ← parseDirectivesA inp pf n .interface
    let fields ← parseFieldsDefinitionA inp pf n
    return { desc, name := t.lit, kind := .interface, dirs, fields }
  | .union =>
    let dirs ← parseDirectivesA inp pf n .union
    let members ← parseUnionMemberTypesA inp n
    return { desc, name := t.lit, kind := .union, dirs, members }
  | .enum =>
    let dirs ← parseDirectivesA inp pf n .enum
    let values ← parseEnumValuesDefinitionA inp pf n
    return { desc, name := t.lit, kind := .enum, dirs, values }
  | .inputObject =>
    let dirs ← parseDirectivesA inp pf n .inputObject
    let inputs ← parseInputFieldsDefinitionA inp pf n
    return { desc, name := t.lit, kind := .inputObject, dirs, inputs }

/-- `parseTypeDefinition` (parser.go:1172-1194).  `nil, nil` for an unknown keyword would be
dereferenced later. -/
def parseTypeDefinitionA (n : Nat) (desc : Str) : PA ATypeDef := do
  let t ← mustConsume0A inp .name
  match kindOf (t.lit.value inp) with
  | some k => parseTypeBodyA inp pf n desc k
  | none => crashA

/-- `parseTypeExtension` (parser.go:737-829).  An unknown keyword (which cannot be: 905) is a scalar
extension with location 0 in the code; the model panics. -/
def parseTypeExtensionA (n : Nat) : PA ATypeDef := do
  let kt ← mustConsume0A inp .name
  let t ← mustConsume0A inp .name
  let ifaces ← (do
    if kt.lit.value inp = b!"type" then
      if ← peek1A inp .name b!"implements" then parseImplementsInterfacesA inp n
      else return []
    else return [])
  match kindOf (kt.lit.value inp) with
  | none => crashA
  | some .scalar =>
    let dirs ← parseDirectivesA inp pf n .scalar
    return { name := t.lit, kind := .scalar, ifaces, dirs }
  | some .object =>
    let dirs ← parseDirectivesA inp pf n .object
    let fields ← parseFieldsDefinitionA inp pf n
    return { name := t.lit, kind := .object, ifaces, dirs, fields }
  | some .interface =>
    let dirs ← parseDirectivesA inp pf n .interface
    let fields ← parseFieldsDefinitionA inp pf n
    return { name := t.lit, kind := .interface, ifaces, dirs, fields }
  | some .union =>
    let dirs ← parseDirectivesA inp pf n .union
    let members ← parseUnionMemberTypesA inp n
    return { name := t.lit, kind := .union, ifaces, dirs, members }
  | some .enum =>
    let dirs ← parseDirectivesA inp pf n .enum
    let values ← parseEnumValuesDefinitionA inp pf n
    return { name := t.lit, kind := .enum, ifaces, dirs, values }
  | some .inputObject =>
    let dirs ← parseDirectivesA inp pf n .inputObject
    let inputs ← parseInputFieldsDefinitionA inp pf n
    return { name := t.lit, kind := .inputObject, ifaces, dirs, inputs }

/-- `parseTypeSystemDefinition` (parser.go:832-881).  An empty definition (880) cannot be returned; it would be
a schema definition that is nil. -/
def parseTypeSystemDefinitionA (n : Nat) (desc : Str) : PA ABody := do
  if ← peek1A inp .name b!"schema" then
    let s ← parseSchemaDefinitionA inp pf n
    return .schema s
  else if ← peek1A inp .name b!"directive" then
    let d ← parseDirectiveDefinitionA inp pf n desc
    return .directive d
  else if ← peeknA inp .name typeKeywords then
    let t ← parseTypeDefinitionA inp pf n desc
    return .type t
  else crashA

/-- `parseTypeSystemExtension` (parser.go:885-927). -/
def parseTypeSystemExtensionA (n : Nat) : PA ABody := do
  if ← skip1A inp .name b!"extend" then
    if ← peek1A inp .name b!"schema" then
      let s ← parseSchemaExtensionA inp pf n
      return .schemaExt s
    else if ← peeknA inp .name typeKeywords then
      let t ← parseTypeExtensionA inp pf n
      return .typeExt t
    else unexpectedCurA inp [expected .name (b!"schema" :: typeKeywords)]
  else unexpectedCurA inp [expected .name [b!"extend"]]

/-- `parseDefinition` (parser.go:91-161), without the location. -/
def parseDefinitionBodyA (n : Nat) : PA ABody := do
  let t ← curA
  let shorthand := t.lit.value inp == b!"{"
  if ← orPA (peeknA inp .name [b!"query", b!"mutation", b!"subscription"]) (peek1A inp .punctuator b!"{") then
    let o ← parseOperationDefinitionA inp pf n shorthand
    return .op o
  else if ← peek1A inp .name b!"fragment" then
    let f ← parseFragmentDefinitionA inp pf n
    return .frag f
  else if ← peek1A inp .name b!"extend" then
    parseTypeSystemExtensionA inp pf n
  else
    let desc ← consume0A .stringValue
    let d := (desc.map (·.lit)).getD (.own [])
    let lits := typeKeywords ++ [b!"directive"] ++ (if d.value inp = [] then [b!"schema"] else [])
    if ← peeknA inp .name lits then parseTypeSystemDefinitionA inp pf n d
    else unexpectedCurA inp [expected .name [b!"query", b!"mutation", b!"fragment"], expected .punctuator [b!"{"]]

/-- `parseDefinition` (parser.go:91-161). -/
def parseDefinitionA (n : Nat) : PA ADefinition := do
  let t ← curA
  let b ← parseDefinitionBodyA inp pf n
  return ⟨⟨t.line, t.col⟩, b⟩

/-- The loop of `Parse` (parser.go:38-78): stops at EOF, fails at an Illegal token. -/
def parseDefsA (n : Nat) : PA (List ADefinition) :=
  doWhileA (do
      let d ← parseDefinitionA inp pf n
      if ← peek0A .illegal then unexpectedCurA inp []
      else return d)
    (peek0A .eof)

/-- Outcome of `Parse`. -/
inductive AParseOut where
  | ok (d : ADocument)
  | err (e : PErr)
  | panic
  | oof

/-- `Parse` over the tokens (parser.go:27-88).  Simplification: the counters of a document are numbers, never a window, and
counted when it is read. -/
def parseTokensA (ts : List ATok) : AParseOut :=
  match parseDefsA inp pf (ts.length + 1) ts with
  | .ok defs _ => .ok ⟨defs, mkDocument (defs.map (ADefinition.read inp))⟩
  | .err e _ => .err e
  | .panic => .panic
  | .oof => .oof

end

/-- `NewParser(input).Parse()` (parser.go:19-88). -/
def parseA (pf : Bytes → Option Nat) (input : Bytes) : AParseOut :=
  match tokensA input with
  | .ret ts => parseTokensA input pf ts
  | .panic => .panic
  | .oof => .oof

/-- What the caller has of the result while `buf` is in the buffer. -/
def AParseOut.readAs (buf : Bytes) : AParseOut → ParseOut
  | .ok d => .ok (d.read buf)
  | .err e => .err e
  | .panic => .panic
  | .oof => .oof

end GQL
