/-
What it means for a function from numbers to words to name constants (independent of Model/Names).
-/
import Verif.Model.Basic

namespace GQL.Spec

/-- The constants are `number 0`, `number 1`, …, as many as there are words; the i-th of them is called by the i-th word, and every
other number is called `other`. -/
def Called (name : Int → Bytes) (number : Nat → Int) (words : List Bytes) (other : Bytes) : Prop :=
  (∀ i w, words[i]? = some w → name (number i) = w) ∧
  (∀ k, (∀ i, i < words.length → k ≠ number i) → name k = other)

/-- The word that a constant is called by is the name of no other number, be it a constant or not. -/
def Identifies (name : Int → Bytes) (number : Nat → Int) (n : Nat) : Prop :=
  ∀ i, i < n → ∀ k, name k = name (number i) → k = number i

/-- `iota`. -/
def counted : Nat → Int := fun i => i

/-- `iota - 1`. -/
def countedFromMinusOne : Nat → Int := fun i => (i : Int) - 1

/-- `1 << iota`. -/
def bit : Nat → Int := fun i => ((2 ^ i : Nat) : Int)

/-- The names of the directive locations in the order of the GraphQL specification (3.13), with VARIABLE_DEFINITION. -/
def locationWords : List Bytes :=
  [b!"QUERY", b!"MUTATION", b!"SUBSCRIPTION", b!"FIELD", b!"FRAGMENT_DEFINITION", b!"FRAGMENT_SPREAD", b!"INLINE_FRAGMENT",
   b!"VARIABLE_DEFINITION", b!"SCHEMA", b!"SCALAR", b!"OBJECT", b!"FIELD_DEFINITION", b!"ARGUMENT_DEFINITION", b!"INTERFACE",
   b!"UNION", b!"ENUM", b!"ENUM_VALUE", b!"INPUT_OBJECT", b!"INPUT_FIELD_DEFINITION"]

end GQL.Spec
