/-
Which documents the dumper prints in a form that reads back to the same document.  Independent of the model of the dumper.

A string is printed in quotes if it has no line feed, and as a block string otherwise; a description is always printed as a block string.
-/
import Verif.Spec.Grammar
import Verif.Spec.GoBlock

namespace GQL.Spec

/-- Every character survives between quotes: none is a control character for which the dumper knows no escape. -/
def QuoteOk (cs : List Char) : Prop := ∀ c ∈ cs, printable c = true ∨ c = '\x08' ∨ c = '\x0c'

/-- Every character survives inside a block string: a backslash takes the next character with it, so it must not stand before three quotes; there are no control characters,
except after a backslash; three quotes are fine if they are escaped (`esc`), which they are in values but not in descriptions. -/
inductive BlockOk (esc : Bool) : List Char → Prop
  | nil : BlockOk esc []
  | last : BlockOk esc ['\\']
  | pair {c s} : ¬ quotes3 <+: (c :: s) → BlockOk esc s → BlockOk esc ('\\' :: c :: s)
  | quotes {s} : esc = true → BlockOk esc s → BlockOk esc (quotes3 ++ s)
  | char {c s} : c ≠ '\\' → c ≠ '\r' → ¬ quotes3 <+: (c :: s) → (printable c = true ∨ c = '\n') → BlockOk esc s →
      BlockOk esc (c :: s)

/-- A line of white space only. -/
def blank (l : List Char) : Bool := l.all whiteSpace

/-- Reading a block string removes blank lines at both ends and the common indentation; here there are none to remove: the first and the last line are not blank, and a line begins with a character that
is not white space. -/
def LinesOk (ls : List (List Char)) : Prop :=
  (∀ l, ls.head? = some l → blank l = false) ∧ (∀ l, ls.getLast? = some l → blank l = false) ∧
  ∃ c l, c :: l ∈ ls ∧ whiteSpace c = false

/-- The string reads back. -/
def StrOk (cs : List Char) : Prop :=
  if '\n' ∈ cs then BlockOk true cs ∧ LinesOk (splitLF cs) else QuoteOk cs

/-- The description reads back (an empty one is not printed). -/
def DescOk (cs : List Char) : Prop := cs = [] ∨ (BlockOk false cs ∧ LinesOk (splitLF cs))

section
variable (fmtG : Nat → List Nat) (pf : List Nat → Option Nat)

/-- The float is printed as a Float literal that denotes it. -/
def FloatOk (f : Nat) : Prop :=
  ∃ cs, fmtG f = utf8 cs ∧ Lexeme SpecBlock cs ⟨.float, cs⟩ [] ∧ '\x00' ∉ cs ∧ pf (fmtG f) = some f

mutual
/-- All strings and floats in a value read back. -/
def ValOk : Value → Prop
  | .str s => ∃ cs, s = utf8 cs ∧ '\x00' ∉ cs ∧ StrOk cs
  | .float f => FloatOk fmtG pf f
  | .list vs => ValsOk vs
  | .obj fs => FldsOk fs
  | _ => True
/-- All values. -/
def ValsOk : List Value → Prop
  | [] => True
  | v :: vs => ValOk v ∧ ValsOk vs
/-- All fields. -/
def FldsOk : List (Bytes × Value) → Prop
  | [] => True
  | (_, v) :: fs => ValOk v ∧ FldsOk fs
end

/-- A description reads back. -/
def DescriptionOk (s : Bytes) : Prop := ∃ cs, s = utf8 cs ∧ '\x00' ∉ cs ∧ DescOk cs

/-- The values in arguments. -/
def ArgsOk (as : List Argument) : Prop := ∀ a ∈ as, ValOk fmtG pf a.value

/-- The values in directives. -/
def DirsOk (ds : List Directive) : Prop := ∀ d ∈ ds, ArgsOk fmtG pf d.args

/-- The type is complete: no list type without item type (which the parser makes of a broken type, see C15). -/
def TyOk : Ty → Prop
  | .named _ _ => True
  | .list t _ => TyOk t
  | .listNil _ => False

/-- A type without `!` and brackets. -/
def Plain1 (t : Ty) : Prop := ∃ n, t = .named n false

/-- A type without brackets. -/
def Plain2 (t : Ty) : Prop := ∃ n b, t = .named n b

mutual
/-- The values and types in a selection. -/
def SelOk : Selection → Prop
  | .field _ _ args dirs sels => ArgsOk fmtG pf args ∧ DirsOk fmtG pf dirs ∧ SelsOk sels
  | .spread _ dirs => DirsOk fmtG pf dirs
  | .inline cond dirs sels => (∀ t, cond = some t → Plain1 t) ∧ DirsOk fmtG pf dirs ∧ SelsOk sels
/-- Selections. -/
def SelsOk : List Selection → Prop
  | [] => True
  | s :: ss => SelOk s ∧ SelsOk ss
end

/-- A default value. -/
def DefaultOk (d : Option Value) : Prop := ∀ v, d = some v → ValOk fmtG pf v

/-- A variable definition. -/
def VarOk (v : VarDef) : Prop := TyOk v.type ∧ DefaultOk fmtG pf v.default

/-- An operation. -/
def OpOk (o : OpDef) : Prop := (∀ v ∈ o.vars, VarOk fmtG pf v) ∧ DirsOk fmtG pf o.dirs ∧ SelsOk fmtG pf o.sels

/-- A fragment definition. -/
def FragOk (f : FragDef) : Prop := Plain1 f.cond ∧ DirsOk fmtG pf f.dirs ∧ SelsOk fmtG pf f.sels

/-- An input value definition: its type has no brackets. -/
def InputOk (v : InputVal) : Prop :=
  DescriptionOk v.desc ∧ Plain2 v.type ∧ DefaultOk fmtG pf v.default ∧ DirsOk fmtG pf v.dirs

/-- A field definition: its type has no brackets. -/
def FieldOk (f : FieldDef) : Prop :=
  DescriptionOk f.desc ∧ Plain2 f.type ∧ (∀ a ∈ f.args, InputOk fmtG pf a) ∧ DirsOk fmtG pf f.dirs

/-- An enum value definition. -/
def EnumOk (v : EnumVal) : Prop := DescriptionOk v.desc ∧ DirsOk fmtG pf v.dirs

/-- A type definition or extension. -/
def TypeOk (t : TypeDef) : Prop :=
  DescriptionOk t.desc ∧ (∀ i ∈ t.ifaces, Plain1 i) ∧ DirsOk fmtG pf t.dirs ∧ (∀ f ∈ t.fields, FieldOk fmtG pf f) ∧
  (∀ m ∈ t.members, Plain1 m) ∧ (∀ v ∈ t.values, EnumOk fmtG pf v) ∧ (∀ v ∈ t.inputs, InputOk fmtG pf v)

/-- A definition. -/
def BodyOk : Body → Prop
  | .op o => OpOk fmtG pf o
  | .frag f => FragOk fmtG pf f
  | .schema s | .schemaExt s => DirsOk fmtG pf s.dirs
  | .type t | .typeExt t => TypeOk fmtG pf t
  | .directive d => DescriptionOk d.desc ∧ ∀ a ∈ d.args, InputOk fmtG pf a

/-- The document consists of one anonymous query with variables or directives: the dumper leaves out the keyword `query` nevertheless. -/
def BareQuery (ds : List Definition) : Prop :=
  ∃ l vs dirs sels, ds = [⟨l, .op ⟨.query, [], vs, dirs, sels⟩⟩] ∧ (vs ≠ [] ∨ dirs ≠ [])

/-- The document reads back. -/
def DocOk (d : Document) : Prop := (∀ x ∈ d.defs, BodyOk fmtG pf x.body) ∧ ¬ BareQuery d.defs

end

end GQL.Spec
