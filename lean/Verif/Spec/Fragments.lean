/-
Which variables and fragments a definition uses, read off the tree of the document.
-/
import Verif.Spec.Tree

namespace GQL.Spec

/-- The nodes of a definition (the number of the definition does not matter). -/
def defNodes (d : Definition) : List ANode := (defTree true 0 d).nodes

/-- The variable `$x` occurs in the definition, at any depth. -/
def UsesVar (d : Definition) (x : Bytes) : Prop := ANode.variableValue (.var x) ∈ defNodes d

/-- The spread `...name` occurs in the definition, at any depth. -/
def Spreads (d : Definition) (name : Bytes) : Prop := ∃ ds, ANode.fragmentSpreadSelection (.spread name ds) ∈ defNodes d

/-- The definition is a fragment of that name. -/
def IsFragment (d : Definition) (name : Bytes) : Prop := ∃ f, d.body = .frag f ∧ f.name = name

/-- `d'` is a fragment of the document that `d` spreads. -/
def SpreadsTo (doc : Document) (d d' : Definition) : Prop := d' ∈ doc.defs ∧ ∃ name, Spreads d name ∧ IsFragment d' name

/-- `d'` is reached from `d` by one or more spreads. -/
inductive Reaches (doc : Document) : Definition → Definition → Prop
  | one {d d'} : SpreadsTo doc d d' → Reaches doc d d'
  | more {d d' d''} : SpreadsTo doc d d' → Reaches doc d' d'' → Reaches doc d d''

/-- The variable is used in the definition or in a fragment reached from it. -/
def Used (doc : Document) (d : Definition) (x : Bytes) : Prop := UsesVar d x ∨ ∃ d', Reaches doc d d' ∧ UsesVar d' x

end GQL.Spec
