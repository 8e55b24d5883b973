/-
The GraphQL grammar (June 2018, sections 2 and 3, appendix B) over tokens, with the abstract syntax each
derivation denotes.  Independent of the model of the parser.

`X ts a rest`: the tokens `ts` begin with an `X` denoting `a`, and `rest` follows.  An optional part may
be absent only if the next token does not begin it (the lookahead restriction that makes the
grammar unambiguous).

With `lax = false` this is the grammar of the specification.  With `lax = true` there are
additional productions, for what the Go parser accepts beyond the specification; each has a premise `lax = true`.

`pf` gives the 64-bit floating point number a Float literal denotes, if it is in range.
-/
import Verif.Model.Lexer
import Verif.Model.Ast
import Verif.Spec.Words

namespace GQL.Spec

abbrev Toks := List Token

/-- The next token has kind `k` and literal `l`. -/
def Tok1 (k : TokenKind) (l : Bytes) (ts rest : Toks) : Prop :=
  ∃ t, ts = t :: rest ∧ t.kind = k ∧ t.lit = l

/-- A punctuator. -/
abbrev Pu (l : Bytes) := Tok1 .punctuator l
/-- A name, in particular a keyword. -/
abbrev Nm (l : Bytes) := Tok1 .name l

/-- The next token is not the given one. -/
def NotNext1 (k : TokenKind) (l : Bytes) (ts : Toks) : Prop := ∀ rest, ¬ Tok1 k l ts rest

/-- The next token is not of the given kind. -/
def NotKind (k : TokenKind) (ts : Toks) : Prop := ∀ l rest, ¬ Tok1 k l ts rest

/-- Any number of `R`. -/
inductive Many {α : Type} (R : Toks → α → Toks → Prop) : Toks → List α → Toks → Prop
  | nil (ts) : Many R ts [] ts
  | cons {ts a r as rest} : R ts a r → Many R r as rest → Many R ts (a :: as) rest

/-- One or more `R` separated by the punctuator `l`. -/
inductive SepBy {α : Type} (R : Toks → α → Toks → Prop) (l : Bytes) : Toks → List α → Toks → Prop
  | one {ts a rest} : R ts a rest → NotNext1 .punctuator l rest → SepBy R l ts [a] rest
  | cons {ts a r r' as rest} : R ts a r → Pu l r r' → SepBy R l r' as rest → SepBy R l ts (a :: as) rest

/-- An optional punctuator that says nothing. -/
def OptPu (l : Bytes) (ts rest : Toks) : Prop :=
  Pu l ts rest ∨ (NotNext1 .punctuator l ts ∧ rest = ts)

/-- `!` or not. -/
def Bang (ts : Toks) (b : Bool) (rest : Toks) : Prop :=
  (b = true ∧ Pu b!"!" ts rest) ∨ (b = false ∧ NotNext1 .punctuator b!"!" ts ∧ rest = ts)

/-- Value of a sequence of decimal digits. -/
def decVal : Bytes → Nat
  | [] => 0
  | d :: ds => (d - 48) * 10 ^ ds.length + decVal ds

/-- One or more decimal digits. -/
def AllDigits (ds : Bytes) : Prop := ds ≠ [] ∧ ∀ d ∈ ds, 48 ≤ d ∧ d ≤ 57

/-- The literal `l` denotes the integer `i` (a sign `+` does not come from the lexer). -/
def IntLit (l : Bytes) (i : Int) : Prop :=
  (AllDigits l ∧ i = decVal l) ∨ (∃ ds, l = 43 :: ds ∧ AllDigits ds ∧ i = decVal ds) ∨
  (∃ ds, l = 45 :: ds ∧ AllDigits ds ∧ i = -(decVal ds : Int))

/-- 64-bit integers. -/
def Int64 (i : Int) : Prop := -2^63 ≤ i ∧ i < 2^63

section
variable (pf : Bytes → Option Nat) (lax : Bool)

mutual
/-- Type: NamedType, ListType, NonNullType.  A type that is not finished may be taken for a list
without item type by the lax grammar. -/
inductive TypeRef : Toks → Ty → Toks → Prop
  | named {ts n r b rest} : Nm n ts r → Bang r b rest → TypeRef ts (.named n b) rest
  | list {ts r1 t r2 r3 b rest} : Pu b!"[" ts r1 → TypeRef r1 t r2 → Pu b!"]" r2 r3 →
      Bang r3 b rest → TypeRef ts (.list t b) rest
  | broken {ts r1 rest} : lax = true → Pu b!"[" ts r1 → TypeStuck r1 rest →
      TypeRef ts (.listNil false) rest
/-- There is no type here: neither a name nor a bracket, or a list type without closing bracket. -/
inductive TypeStuck : Toks → Toks → Prop
  | start {ts} : NotKind .name ts → NotNext1 .punctuator b!"[" ts → TypeStuck ts ts
  | unclosed {ts r1 t rest} : Pu b!"[" ts r1 → TypeRef r1 t rest → NotNext1 .punctuator b!"]" rest →
      TypeStuck ts rest
end

/-- NamedType; the lax grammar allows `!` after it. -/
inductive NamedType : Toks → Ty → Toks → Prop
  | mk {ts n r b rest} : Nm n ts r → Bang r b rest → (b = false ∨ lax = true) →
      NamedType ts (.named n b) rest

/-- A type in the lists of interfaces and union members: NamedType; the lax grammar allows any type. -/
def MemberType (ts : Toks) (t : Ty) (rest : Toks) : Prop :=
  TypeRef lax ts t rest ∧ (lax = true ∨ ∃ n, t = .named n false)

mutual
/-- Value; `const` values do not contain variables (the lax grammar allows them everywhere). -/
inductive Val (const : Bool) : Toks → Value → Toks → Prop
  | var {ts r n rest} : (const = false ∨ lax = true) → Pu b!"$" ts r → Nm n r rest →
      Val const ts (.var n) rest
  | int {ts l i rest} : Tok1 .intValue l ts rest → IntLit l i → Int64 i → Val const ts (.int i) rest
  | float {ts l f rest} : Tok1 .floatValue l ts rest → pf l = some f → Val const ts (.float f) rest
  | str {ts s rest} : Tok1 .stringValue s ts rest → Val const ts (.str s) rest
  | tru {ts rest} : Nm b!"true" ts rest → Val const ts (.bool true) rest
  | fls {ts rest} : Nm b!"false" ts rest → Val const ts (.bool false) rest
  | null {ts rest} : Nm b!"null" ts rest → Val const ts .null rest
  | enum {ts n rest} : Nm n ts rest → n ≠ b!"true" → n ≠ b!"false" → n ≠ b!"null" →
      Val const ts (.enum n) rest
  | list {ts r1 vs r2 rest} : Pu b!"[" ts r1 → Vals const r1 vs r2 → Pu b!"]" r2 rest →
      Val const ts (.list vs) rest
  | obj {ts r1 fs r2 rest} : Pu b!"{" ts r1 → Flds const r1 fs r2 → Pu b!"}" r2 rest →
      Val const ts (.obj fs) rest
/-- Values. -/
inductive Vals (const : Bool) : Toks → List Value → Toks → Prop
  | nil (ts) : Vals const ts [] ts
  | cons {ts v r vs rest} : Val const ts v r → Vals const r vs rest → Vals const ts (v :: vs) rest
/-- ObjectFields. -/
inductive Flds (const : Bool) : Toks → List (Bytes × Value) → Toks → Prop
  | nil (ts) : Flds const ts [] ts
  | cons {ts n r1 r2 v r3 fs rest} : Nm n ts r1 → Pu b!":" r1 r2 → Val const r2 v r3 →
      Flds const r3 fs rest → Flds const ts ((n, v) :: fs) rest
end

/-- DefaultValue, optional. -/
inductive Default : Toks → Option Value → Toks → Prop
  | none {ts} : NotNext1 .punctuator b!"=" ts → Default ts none ts
  | some {ts r v rest} : Pu b!"=" ts r → Val pf lax true r v rest → Default ts (some v) rest

/-- Argument. -/
inductive Arg (const : Bool) : Toks → Argument → Toks → Prop
  | mk {ts n r1 r2 v rest} : Nm n ts r1 → Pu b!":" r1 r2 → Val pf lax const r2 v rest →
      Arg const ts ⟨n, v⟩ rest

/-- Arguments, optional.  The lax grammar allows `()`. -/
inductive Args (const : Bool) : Toks → List Argument → Toks → Prop
  | none {ts} : NotNext1 .punctuator b!"(" ts → Args const ts [] ts
  | some {ts r1 as r2 rest} : Pu b!"(" ts r1 → Many (Arg pf lax const) r1 as r2 → Pu b!")" r2 rest →
      (as ≠ [] ∨ lax = true) → Args const ts as rest

/-- Directive, standing at a place of sort `loc`. -/
inductive Dir (const : Bool) (loc : DirLoc) : Toks → Directive → Toks → Prop
  | mk {ts r1 n r2 as rest} : Pu b!"@" ts r1 → Nm n r1 r2 → Args pf lax const r2 as rest →
      Dir const loc ts ⟨n, as, loc⟩ rest

/-- Directives, optional. -/
def Dirs (const : Bool) (loc : DirLoc) (ts : Toks) (ds : List Directive) (rest : Toks) : Prop :=
  Many (Dir pf lax const loc) ts ds rest ∧ NotNext1 .punctuator b!"@" rest

/-- TypeCondition. -/
inductive TypeCond : Toks → Ty → Toks → Prop
  | mk {ts r t rest} : Nm b!"on" ts r → NamedType lax r t rest → TypeCond ts t rest

/-- TypeCondition of an inline fragment, optional. -/
inductive OptCond : Toks → Option Ty → Toks → Prop
  | none {ts} : NotNext1 .name b!"on" ts → OptCond ts none ts
  | some {ts t rest} : TypeCond lax ts t rest → OptCond ts (some t) rest

/-- Alias and name of a field. -/
inductive FieldName : Toks → Bytes × Bytes → Toks → Prop
  | plain {ts n rest} : Nm n ts rest → NotNext1 .punctuator b!":" rest → FieldName ts ([], n) rest
  | alias {ts a r1 r2 n rest} : Nm a ts r1 → Pu b!":" r1 r2 → Nm n r2 rest → FieldName ts (a, n) rest

mutual
/-- Selection. -/
inductive Sel : Toks → Selection → Toks → Prop
  | leaf {ts a n r1 args r2 dirs rest} : FieldName ts (a, n) r1 → Args pf lax false r1 args r2 →
      Dirs pf lax false .field r2 dirs rest → NotNext1 .punctuator b!"{" rest →
      Sel ts (.field a n args dirs []) rest
  | node {ts a n r1 args r2 dirs r3 sels rest} : FieldName ts (a, n) r1 → Args pf lax false r1 args r2 →
      Dirs pf lax false .field r2 dirs r3 → SelSet r3 sels rest →
      Sel ts (.field a n args dirs sels) rest
  | spread {ts r1 n r2 dirs rest} : Pu b!"..." ts r1 → Nm n r1 r2 → n ≠ b!"on" →
      Dirs pf lax false .fragmentSpread r2 dirs rest → Sel ts (.spread n dirs) rest
  | inline {ts r1 c r2 dirs r3 sels rest} : Pu b!"..." ts r1 → OptCond lax r1 c r2 →
      Dirs pf lax false .inlineFragment r2 dirs r3 → SelSet r3 sels rest →
      Sel ts (.inline c dirs sels) rest
/-- One or more selections. -/
inductive Sels : Toks → List Selection → Toks → Prop
  | one {ts s rest} : Sel ts s rest → Sels ts [s] rest
  | cons {ts s r ss rest} : Sel ts s r → Sels r ss rest → Sels ts (s :: ss) rest
/-- SelectionSet. -/
inductive SelSet : Toks → List Selection → Toks → Prop
  | mk {ts r1 ss r2 rest} : Pu b!"{" ts r1 → Sels r1 ss r2 → Pu b!"}" r2 rest → SelSet ts ss rest
end

/-- VariableDefinition. -/
inductive VarDefn : Toks → VarDef → Toks → Prop
  | mk {ts r1 n r2 r3 t r4 d rest} : Pu b!"$" ts r1 → Nm n r1 r2 → Pu b!":" r2 r3 →
      TypeRef lax r3 t r4 → Default pf lax r4 d rest → VarDefn ts ⟨n, t, d⟩ rest

/-- VariableDefinitions, optional. -/
inductive VarDefns : Toks → List VarDef → Toks → Prop
  | none {ts} : NotNext1 .punctuator b!"(" ts → VarDefns ts [] ts
  | some {ts r1 ds r2 rest} : Pu b!"(" ts r1 → Many (VarDefn pf lax) r1 ds r2 → ds ≠ [] →
      Pu b!")" r2 rest → VarDefns ts ds rest

/-- OperationType. -/
inductive OpType : Toks → OpKind → Toks → Prop
  | query {ts rest} : Nm b!"query" ts rest → OpType ts .query rest
  | mutation {ts rest} : Nm b!"mutation" ts rest → OpType ts .mutation rest
  | subscription {ts rest} : Nm b!"subscription" ts rest → OpType ts .subscription rest

/-- An optional name or description: empty if absent. -/
def OptTok (k : TokenKind) (ts : Toks) (l : Bytes) (rest : Toks) : Prop :=
  Tok1 k l ts rest ∨ (l = [] ∧ NotKind k ts ∧ rest = ts)

/-- The place of directives on an operation. -/
def opLoc : OpKind → DirLoc
  | .query => .query | .mutation => .mutation | .subscription => .subscription

/-- OperationDefinition. -/
inductive OpDefn : Toks → OpDef → Toks → Prop
  | shorthand {ts sels rest} : SelSet pf lax ts sels rest → OpDefn ts ⟨.query, [], [], [], sels⟩ rest
  | full {ts k r1 n r2 vs r3 ds r4 sels rest} : OpType ts k r1 → OptTok .name r1 n r2 →
      VarDefns pf lax r2 vs r3 → Dirs pf lax false (opLoc k) r3 ds r4 → SelSet pf lax r4 sels rest →
      OpDefn ts ⟨k, n, vs, ds, sels⟩ rest

/-- FragmentDefinition. -/
inductive FragDefn : Toks → FragDef → Toks → Prop
  | mk {ts r1 n r2 c r3 ds r4 sels rest} : Nm b!"fragment" ts r1 → Nm n r1 r2 → n ≠ b!"on" →
      TypeCond lax r2 c r3 → Dirs pf lax false .fragmentDefinition r3 ds r4 → SelSet pf lax r4 sels rest →
      FragDefn ts ⟨n, c, ds, sels⟩ rest

/-- OperationTypeDefinition. -/
inductive OpTypeDefn : Toks → OpTypeDef → Toks → Prop
  | mk {ts k r1 r2 t rest} : OpType ts k r1 → Pu b!":" r1 r2 → NamedType lax r2 t rest →
      OpTypeDefn ts ⟨t, k⟩ rest

/-- `{ OperationTypeDefinition+ }`. -/
inductive OpTypeDefns : Toks → List OpTypeDef → Toks → Prop
  | mk {ts r1 ops r2 rest} : Pu b!"{" ts r1 → Many (OpTypeDefn lax) r1 ops r2 → ops ≠ [] →
      Pu b!"}" r2 rest → OpTypeDefns ts ops rest

/-- SchemaDefinition. -/
inductive SchemaDefn : Toks → SchemaDef → Toks → Prop
  | mk {ts r1 ds r2 ops rest} : Nm b!"schema" ts r1 → Dirs pf lax true .schema r1 ds r2 →
      OpTypeDefns lax r2 ops rest → SchemaDefn ts ⟨ds, ops⟩ rest

/-- SchemaExtension, after `extend`. -/
inductive SchemaExtn : Toks → SchemaDef → Toks → Prop
  | ops {ts r1 ds r2 ops rest} : Nm b!"schema" ts r1 → Dirs pf lax true .schema r1 ds r2 →
      OpTypeDefns lax r2 ops rest → SchemaExtn ts ⟨ds, ops⟩ rest
  | dirs {ts r1 ds rest} : Nm b!"schema" ts r1 → Dirs pf lax true .schema r1 ds rest → ds ≠ [] →
      NotNext1 .punctuator b!"{" rest → SchemaExtn ts ⟨ds, []⟩ rest

/-- InputValueDefinition. -/
inductive InputValue (loc : DirLoc) : Toks → InputVal → Toks → Prop
  | mk {ts desc r1 n r2 r3 t r4 d r5 ds rest} : OptTok .stringValue ts desc r1 → Nm n r1 r2 →
      Pu b!":" r2 r3 → TypeRef lax r3 t r4 → Default pf lax r4 d r5 → Dirs pf lax true loc r5 ds rest →
      InputValue loc ts ⟨desc, n, t, ds, d⟩ rest

/-- ArgumentsDefinition, optional. -/
inductive ArgsDef : Toks → List InputVal → Toks → Prop
  | none {ts} : NotNext1 .punctuator b!"(" ts → ArgsDef ts [] ts
  | some {ts r1 ds r2 rest} : Pu b!"(" ts r1 → Many (InputValue pf lax .argumentDefinition) r1 ds r2 →
      ds ≠ [] → Pu b!")" r2 rest → ArgsDef ts ds rest

/-- DirectiveLocation. -/
def LocName (ts : Toks) (l : DirLoc) (rest : Toks) : Prop := Nm (Says.place l) ts rest

/-- The set of the locations of a list, as a bit mask. -/
def locMask (ls : List DirLoc) : Nat := ls.foldl (fun m l => m ||| l.bit) 0

/-- DirectiveDefinition, after the description. -/
inductive DirDefn (desc : Bytes) : Toks → DirDef → Toks → Prop
  | mk {ts r1 r2 n r3 as r4 r5 r6 ls rest} : Nm b!"directive" ts r1 → Pu b!"@" r1 r2 → Nm n r2 r3 →
      ArgsDef pf lax r3 as r4 → Nm b!"on" r4 r5 → OptPu b!"|" r5 r6 →
      SepBy LocName b!"|" r6 ls rest → DirDefn desc ts ⟨desc, n, as, locMask ls⟩ rest

/-- ImplementsInterfaces, optional. -/
inductive Implements : Toks → List Ty → Toks → Prop
  | none {ts} : NotNext1 .name b!"implements" ts → Implements ts [] ts
  | some {ts r1 r2 is rest} : Nm b!"implements" ts r1 → OptPu b!"&" r1 r2 →
      SepBy (MemberType lax) b!"&" r2 is rest → Implements ts is rest

/-- FieldDefinition. -/
inductive FieldDefn : Toks → FieldDef → Toks → Prop
  | mk {ts desc r1 n r2 as r3 r4 t r5 ds rest} : OptTok .stringValue ts desc r1 → Nm n r1 r2 →
      ArgsDef pf lax r2 as r3 → Pu b!":" r3 r4 → TypeRef lax r4 t r5 →
      Dirs pf lax true .fieldDefinition r5 ds rest → FieldDefn ts ⟨desc, n, as, t, ds⟩ rest

/-- `{ R+ }`, optional. -/
inductive Block {α : Type} (R : Toks → α → Toks → Prop) : Toks → List α → Toks → Prop
  | none {ts} : NotNext1 .punctuator b!"{" ts → Block R ts [] ts
  | some {ts r1 ds r2 rest} : Pu b!"{" ts r1 → Many R r1 ds r2 → ds ≠ [] → Pu b!"}" r2 rest →
      Block R ts ds rest

/-- UnionMemberTypes, optional. -/
inductive UnionMembers : Toks → List Ty → Toks → Prop
  | none {ts} : NotNext1 .punctuator b!"=" ts → UnionMembers ts [] ts
  | some {ts r1 r2 ms rest} : Pu b!"=" ts r1 → OptPu b!"|" r1 r2 →
      SepBy (MemberType lax) b!"|" r2 ms rest → UnionMembers ts ms rest

/-- EnumValueDefinition. -/
inductive EnumValDefn : Toks → EnumVal → Toks → Prop
  | mk {ts desc r1 n r2 ds rest} : OptTok .stringValue ts desc r1 → Nm n r1 r2 →
      n ≠ b!"true" → n ≠ b!"false" → n ≠ b!"null" → Dirs pf lax true .enumValue r2 ds rest →
      EnumValDefn ts ⟨desc, ds, n⟩ rest

/-- TypeDefinition, after the description, and TypeExtension, after `extend`. -/
inductive TypeDefn (desc : Bytes) : Toks → TypeDef → Toks → Prop
  | scalar {ts r1 n r2 ds rest} : Nm b!"scalar" ts r1 → Nm n r1 r2 → Dirs pf lax true .scalar r2 ds rest →
      TypeDefn desc ts { desc, name := n, kind := .scalar, dirs := ds } rest
  | object {ts r1 n r2 is r3 ds r4 fs rest} : Nm b!"type" ts r1 → Nm n r1 r2 → Implements lax r2 is r3 →
      Dirs pf lax true .object r3 ds r4 → Block (FieldDefn pf lax) r4 fs rest →
      TypeDefn desc ts { desc, name := n, kind := .object, ifaces := is, dirs := ds, fields := fs } rest
  | interface {ts r1 n r2 ds r3 fs rest} : Nm b!"interface" ts r1 → Nm n r1 r2 →
      Dirs pf lax true .interface r2 ds r3 → Block (FieldDefn pf lax) r3 fs rest →
      TypeDefn desc ts { desc, name := n, kind := .interface, dirs := ds, fields := fs } rest
  | union {ts r1 n r2 ds r3 ms rest} : Nm b!"union" ts r1 → Nm n r1 r2 →
      Dirs pf lax true .union r2 ds r3 → UnionMembers lax r3 ms rest →
      TypeDefn desc ts { desc, name := n, kind := .union, dirs := ds, members := ms } rest
  | enum {ts r1 n r2 ds r3 vs rest} : Nm b!"enum" ts r1 → Nm n r1 r2 →
      Dirs pf lax true .enum r2 ds r3 → Block (EnumValDefn pf lax) r3 vs rest →
      TypeDefn desc ts { desc, name := n, kind := .enum, dirs := ds, values := vs } rest
  | input {ts r1 n r2 ds r3 is rest} : Nm b!"input" ts r1 → Nm n r1 r2 →
      Dirs pf lax true .inputObject r2 ds r3 → Block (InputValue pf lax .inputFieldDefinition) r3 is rest →
      TypeDefn desc ts { desc, name := n, kind := .inputObject, dirs := ds, inputs := is } rest

/-- A type extension says something. -/
def TypeDef.nonEmpty (t : TypeDef) : Prop :=
  t.ifaces ≠ [] ∨ t.dirs ≠ [] ∨ t.fields ≠ [] ∨ t.members ≠ [] ∨ t.values ≠ [] ∨ t.inputs ≠ []

/-- Definition. -/
inductive Defn : Toks → Body → Toks → Prop
  | op {ts o rest} : OpDefn pf lax ts o rest → Defn ts (.op o) rest
  | frag {ts f rest} : FragDefn pf lax ts f rest → Defn ts (.frag f) rest
  | schema {ts s rest} : SchemaDefn pf lax ts s rest → Defn ts (.schema s) rest
  /-- The lax grammar allows an empty description before `schema`. -/
  | schemaDesc {ts r s rest} : lax = true → Tok1 .stringValue [] ts r → SchemaDefn pf lax r s rest →
      Defn ts (.schema s) rest
  | type {ts desc r t rest} : OptTok .stringValue ts desc r → TypeDefn pf lax desc r t rest →
      Defn ts (.type t) rest
  | directive {ts desc r d rest} : OptTok .stringValue ts desc r → DirDefn pf lax desc r d rest →
      Defn ts (.directive d) rest
  | schemaExt {ts r s rest} : Nm b!"extend" ts r → SchemaExtn pf lax r s rest →
      Defn ts (.schemaExt s) rest
  | typeExt {ts r t rest} : Nm b!"extend" ts r → TypeDefn pf lax [] r t rest →
      (TypeDef.nonEmpty t ∨ lax = true) → Defn ts (.typeExt t) rest

/-- A definition with the position of its first token. -/
inductive LocDefn : Toks → Definition → Toks → Prop
  | mk {t ts b rest} : Defn pf lax (t :: ts) b rest → LocDefn (t :: ts) ⟨⟨t.line, t.col⟩, b⟩ rest

/-- Document: one or more definitions, up to the end of the input. -/
def Doc (ts : Toks) (defs : List Definition) : Prop :=
  ∃ e rest, defs ≠ [] ∧ Many (LocDefn pf lax) ts defs (e :: rest) ∧ e.kind = .eof

end

end GQL.Spec
