/-
JSON (RFC 8259), as far as it is needed to say what a text stands for.
-/
import Verif.Model.Basic
import Verif.Spec.Lex

namespace GQL.Spec

/-- What a JSON text stands for.  The members of an object are in the order of the text. -/
inductive Json where
  | null
  | bool (b : Bool)
  | str (s : Bytes)
  /-- an integer written without fraction and exponent -/
  | int (i : Int)
  /-- any other number, as it is written -/
  | number (text : Bytes)
  | arr (vs : List Json)
  | obj (ms : List (Bytes × Json))

/-- White space (section 2). -/
def JsonSpace (t : Bytes) : Prop := ∀ b ∈ t, b = 32 ∨ b = 9 ∨ b = 10 ∨ b = 13

/-- The escapes of one character (section 7) and the byte they stand for. -/
def jsonEscapes : List (Nat × Nat) := [(34, 34), (92, 92), (47, 47), (98, 8), (102, 12), (110, 10), (114, 13), (116, 9)]

/-- A hexadecimal digit. -/
def JsonHex (b : Nat) : Prop := (48 ≤ b ∧ b ≤ 57) ∨ (65 ≤ b ∧ b ≤ 70) ∨ (97 ≤ b ∧ b ≤ 102)

/-- The value of a hexadecimal digit. -/
def jsonHexValue (b : Nat) : Nat := if b ≤ 57 then b - 48 else if b ≤ 70 then b - 55 else b - 87

/-- The UTF-16 code unit that `\u` and four digits stand for. -/
def jsonUnit (a b c d : Nat) : Nat := jsonHexValue a * 4096 + jsonHexValue b * 256 + jsonHexValue c * 16 + jsonHexValue d

/-- The text between the quotation marks of a string (section 7), and the string in UTF-8.  Half of a surrogate pair stands for no character (section 8.2: what a reader makes of it
is unpredictable); here it may stand for U+FFFD. -/
inductive JsonChars : Bytes → Bytes → Prop
  | nil : JsonChars [] []
  | plain {b : Nat} {t s : Bytes} : 32 ≤ b → b ≠ 34 → b ≠ 92 → JsonChars t s → JsonChars (b :: t) (b :: s)
  | escape {c r : Nat} {t s : Bytes} : (c, r) ∈ jsonEscapes → JsonChars t s → JsonChars (92 :: c :: t) (r :: s)
  | unicode {a b c d : Nat} {t s : Bytes} {x : Char} : JsonHex a → JsonHex b → JsonHex c → JsonHex d → x.toNat = jsonUnit a b c d → JsonChars t s →
      JsonChars (92 :: 117 :: a :: b :: c :: d :: t) (utf8Char x ++ s)
  | pair {a b c d a' b' c' d' : Nat} {t s : Bytes} {x : Char} : JsonHex a → JsonHex b → JsonHex c → JsonHex d → JsonHex a' → JsonHex b' → JsonHex c' → JsonHex d' →
      0xD800 ≤ jsonUnit a b c d → jsonUnit a b c d < 0xDC00 → 0xDC00 ≤ jsonUnit a' b' c' d' → jsonUnit a' b' c' d' < 0xE000 →
      x.toNat = 0x10000 + (jsonUnit a b c d - 0xD800) * 1024 + (jsonUnit a' b' c' d' - 0xDC00) → JsonChars t s →
      JsonChars (92 :: 117 :: a :: b :: c :: d :: 92 :: 117 :: a' :: b' :: c' :: d' :: t) (utf8Char x ++ s)
  | half {a b c d : Nat} {t s : Bytes} : JsonHex a → JsonHex b → JsonHex c → JsonHex d → 0xD800 ≤ jsonUnit a b c d → jsonUnit a b c d < 0xE000 → JsonChars t s →
      JsonChars (92 :: 117 :: a :: b :: c :: d :: t) (0xEF :: 0xBF :: 0xBD :: s)

/-- A non-empty sequence of decimal digits and the number it stands for. -/
def JsonDigits (t : Bytes) : Prop := t ≠ [] ∧ ∀ b ∈ t, 48 ≤ b ∧ b ≤ 57

/-- The number that decimal digits stand for. -/
def digitsValue (t : Bytes) : Nat := t.foldl (fun n d => n * 10 + (d - 48)) 0

/-- No leading zero (section 6). -/
def JsonNatural (t : Bytes) : Prop := JsonDigits t ∧ (t.head? = some 48 → t = [48])

/-- An optional fraction and an optional exponent, not both absent (section 6). -/
inductive JsonTail : Bytes → Prop
  | frac {f : Bytes} : JsonDigits f → JsonTail (46 :: f)
  | exp {e s d : Bytes} : (e = b!"e" ∨ e = b!"E") → (s = [] ∨ s = b!"+" ∨ s = b!"-") → JsonDigits d → JsonTail (e ++ s ++ d)
  | both {f e s d : Bytes} : JsonDigits f → (e = b!"e" ∨ e = b!"E") → (s = [] ∨ s = b!"+" ∨ s = b!"-") → JsonDigits d →
      JsonTail (46 :: f ++ e ++ s ++ d)

mutual
/-- A value (section 3). -/
inductive JsonValue : Bytes → Json → Prop
  | null : JsonValue b!"null" .null
  | true : JsonValue b!"true" (.bool .true)
  | false : JsonValue b!"false" (.bool .false)
  | str {t s : Bytes} : JsonChars t s → JsonValue (34 :: t ++ [34]) (.str s)
  | nat {t : Bytes} : JsonNatural t → JsonValue t (.int (digitsValue t))
  | neg {t : Bytes} : JsonNatural t → JsonValue (45 :: t) (.int (-(digitsValue t : Int)))
  | number {m t u : Bytes} : (m = [] ∨ m = b!"-") → JsonNatural t → JsonTail u → JsonValue (m ++ t ++ u) (.number (m ++ t ++ u))
  | empty {w : Bytes} : JsonSpace w → JsonValue (91 :: w ++ [93]) (.arr [])
  | arr {t : Bytes} {vs : List Json} : JsonElements t vs → JsonValue (91 :: t ++ [93]) (.arr vs)
  | none {w : Bytes} : JsonSpace w → JsonValue (123 :: w ++ [125]) (.obj [])
  | obj {t : Bytes} {ms : List (Bytes × Json)} : JsonMembers t ms → JsonValue (123 :: t ++ [125]) (.obj ms)
/-- The elements of an array (section 5). -/
inductive JsonElements : Bytes → List Json → Prop
  | one {a t b : Bytes} {v : Json} : JsonSpace a → JsonValue t v → JsonSpace b → JsonElements (a ++ t ++ b) [v]
  | cons {a t b u : Bytes} {v : Json} {vs : List Json} : JsonSpace a → JsonValue t v → JsonSpace b → JsonElements u vs →
      JsonElements (a ++ t ++ b ++ 44 :: u) (v :: vs)
/-- The members of an object (section 4). -/
inductive JsonMembers : Bytes → List (Bytes × Json) → Prop
  | one {a k b c t d key : Bytes} {v : Json} : JsonSpace a → JsonChars k key → JsonSpace b → JsonSpace c → JsonValue t v → JsonSpace d →
      JsonMembers (a ++ 34 :: (k ++ 34 :: (b ++ 58 :: (c ++ t ++ d)))) [(key, v)]
  | cons {a k b c t d u key : Bytes} {v : Json} {ms : List (Bytes × Json)} : JsonSpace a → JsonChars k key → JsonSpace b → JsonSpace c →
      JsonValue t v → JsonSpace d → JsonMembers u ms → JsonMembers (a ++ 34 :: (k ++ 34 :: (b ++ 58 :: (c ++ t ++ d ++ 44 :: u)))) ((key, v) :: ms)
end

/-- `t` is a JSON text that stands for `v` (section 2). -/
def JsonText (t : Bytes) (v : Json) : Prop := ∃ a u b, JsonSpace a ∧ JsonValue u v ∧ JsonSpace b ∧ t = a ++ u ++ b

end GQL.Spec
