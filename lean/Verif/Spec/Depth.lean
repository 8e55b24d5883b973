/-
How deeply a text is nested.
-/
import Verif.Spec.Lex
import Verif.Model.Lexer
import Verif.Model.Ast

namespace GQL.Spec

/-- The number of comments before the first token of the text; the flag says that the text begins inside a comment. -/
def leadingComments : Bool → List Char → Nat
  | _, [] => 0
  | true, c :: cs => leadingComments (!lineTerm c) cs
  | false, c :: cs =>
    if c = '#' then 1 + leadingComments true cs
    else if ignored c then leadingComments false cs
    else 0

/-- An opening brace or bracket. -/
def Opens (t : Token) : Prop := t.kind = .punctuator ∧ (t.lit = b!"{" ∨ t.lit = b!"[")

/-- A closing brace or bracket. -/
def Closes (t : Token) : Prop := t.kind = .punctuator ∧ (t.lit = b!"}" ∨ t.lit = b!"]")

instance (t : Token) : Decidable (Opens t) := inferInstanceAs (Decidable (_ ∧ _))
instance (t : Token) : Decidable (Closes t) := inferInstanceAs (Decidable (_ ∧ _))

/-- Braces and brackets are nested at most `k` deep: wherever one stops reading, at most `k` more of them have been opened than
closed. -/
def NestedAtMost (k : Nat) (ts : List Token) : Prop :=
  ∀ read rest, ts = read ++ rest → read.countP (fun t => decide (Opens t)) ≤ read.countP (fun t => decide (Closes t)) + k

/-- Before some token, or before the end, there are at least `sc` comments; `start` is where the reading starts. -/
def CommentRun (sc : Nat) (text : List Char) (items : List Item) (start : List Char) : Prop :=
  sc ≤ leadingComments false start ∨ ∃ i ∈ items, sc ≤ leadingComments false (text.drop (i.before.length + i.chars.length))

/-- A value with lists and objects at most `n` deep; a value of any other kind is one deep. -/
inductive ValWithin : Nat → Value → Prop
  | leaf {n v} : (∀ vs, v ≠ .list vs) → (∀ fs, v ≠ .obj fs) → ValWithin (n+1) v
  | list {n vs} : (∀ v ∈ vs, ValWithin n v) → ValWithin (n+1) (.list vs)
  | obj {n fs} : (∀ p ∈ fs, ValWithin n p.2) → ValWithin (n+1) (.obj fs)

/-- Arguments with values at most `n` deep. -/
def ArgsWithin (n : Nat) (args : List Argument) : Prop := ∀ a ∈ args, ValWithin n a.value

/-- Directives with values at most `n` deep. -/
def DirsWithin (n : Nat) (dirs : List Directive) : Prop := ∀ d ∈ dirs, ArgsWithin n d.args

mutual
/-- A selection set at most `n` deep: what is in it is at most `n-1` deep. -/
inductive SelsWithin : Nat → List Selection → Prop
  | mk {n sels} : (∀ s ∈ sels, SelWithin n s) → SelsWithin (n+1) sels
/-- A selection with everything in it at most `n` deep. -/
inductive SelWithin : Nat → Selection → Prop
  | field {n alias name args dirs sels} : ArgsWithin n args → DirsWithin n dirs → SelsWithin n sels → SelWithin n (.field alias name args dirs sels)
  | spread {n name dirs} : DirsWithin n dirs → SelWithin n (.spread name dirs)
  | inline {n cond dirs sels} : DirsWithin n dirs → SelsWithin n sels → SelWithin n (.inline cond dirs sels)
end

/-- The selections of an operation or a fragment are at most `n` deep. -/
def BodyWithin (n : Nat) (b : Body) : Prop :=
  (∀ o, b = .op o → SelsWithin n o.sels) ∧ (∀ f, b = .frag f → SelsWithin n f.sels)

end GQL.Spec
