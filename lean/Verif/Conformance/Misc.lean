import Verif.Model.Api
import Verif.Model.Dumper
import Verif.Model.Suggest

/-!
# The model against the repository's remaining tests

These are tests of the model's fidelity, not proofs of properties: the cases of ast/dumper_test.go, ast/ast_test.go, graphql/errors_test.go,
validation/utils_test.go (without the suggestions, for which see Props/C57), validation/validate_test.go, validation/walker_test.go and
language/parser_test.go. This file is generated from the Go files.
-/
namespace GQL.Conformance

open GQL

set_option maxRecDepth 100000

/-! ### ast/dumper_test.go: `Sdump` of the parsed document is the text -/

/-- The float literals of the texts. Both `strconv.ParseFloat` and the verb `%g` are parameters of the model; `%g` gives these texts back. -/
def floats : List Bytes := [b!"1.23e+10", b!"1.2", b!"3.4", b!"123.456", b!"1.23456e+10"]

/-- `strconv.ParseFloat` on these texts. -/
def readFloat (s : Bytes) : Option Nat := floats.findIdx? (· == s)

/-- The verb `%g` on their values. -/
def showFloat (n : Nat) : Bytes := (floats[n]?).getD []

/-- `TestSdump` (ast/dumper_test.go:298-317) on one text. The long text `exhaustiveTest` is cut into parts between definitions, as the whole is too
much for the kernel; evaluated as a whole, the model gives it back too. -/
def sdumpCase (text : Bytes) : Bool :=
  match parse readFloat text with
  | .ok d =>
    match sdump showFloat d with
    | .ret b => b == text
    | _ => false
  | _ => false

/-- shorthandTest -/
example : sdumpCase
    [123, 10, 32, 32, 104, 101, 108, 108, 111, 10, 32, 32, 119, 111, 114, 108, 100, 10, 125] = true := by decide +kernel

/-- schemaTest -/
example : sdumpCase
    [116, 121, 112, 101, 32, 81, 117, 101, 114, 121, 32, 123, 10, 32, 32, 100, 111, 103, 58, 32, 68, 111, 103, 10, 125, 10, 10, 101, 110,
     117, 109, 32, 68, 111, 103, 67, 111, 109, 109, 97, 110, 100, 32, 123, 10, 32, 32, 83, 73, 84, 10, 32, 32, 68, 79, 87, 78, 10, 32, 32,
     72, 69, 69, 76, 10, 125, 10, 10, 116, 121, 112, 101, 32, 68, 111, 103, 32, 105, 109, 112, 108, 101, 109, 101, 110, 116, 115, 32, 80,
     101, 116, 32, 123, 10, 32, 32, 110, 97, 109, 101, 58, 32, 83, 116, 114, 105, 110, 103, 33, 10, 32, 32, 110, 105, 99, 107, 110, 97, 109,
     101, 58, 32, 83, 116, 114, 105, 110, 103, 10, 32, 32, 98, 97, 114, 107, 86, 111, 108, 117, 109, 101, 58, 32, 73, 110, 116, 10, 32, 32,
     100, 111, 101, 115, 75, 110, 111, 119, 67, 111, 109, 109, 97, 110, 100, 40, 100, 111, 103, 67, 111, 109, 109, 97, 110, 100, 58, 32, 68,
     111, 103, 67, 111, 109, 109, 97, 110, 100, 33, 41, 58, 32, 66, 111, 111, 108, 101, 97, 110, 33, 10, 32, 32, 105, 115, 72, 111, 117,
     115, 101, 116, 114, 97, 105, 110, 101, 100, 40, 97, 116, 79, 116, 104, 101, 114, 72, 111, 109, 101, 115, 58, 32, 66, 111, 111, 108,
     101, 97, 110, 41, 58, 32, 66, 111, 111, 108, 101, 97, 110, 33, 10, 32, 32, 111, 119, 110, 101, 114, 58, 32, 72, 117, 109, 97, 110, 10,
     125, 10, 10, 105, 110, 116, 101, 114, 102, 97, 99, 101, 32, 83, 101, 110, 116, 105, 101, 110, 116, 32, 123, 10, 32, 32, 110, 97, 109,
     101, 58, 32, 83, 116, 114, 105, 110, 103, 33, 10, 125, 10, 10, 105, 110, 116, 101, 114, 102, 97, 99, 101, 32, 80, 101, 116, 32, 123,
     10, 32, 32, 110, 97, 109, 101, 58, 32, 83, 116, 114, 105, 110, 103, 33, 10, 125, 10, 10, 116, 121, 112, 101, 32, 65, 108, 105, 101,
     110, 32, 105, 109, 112, 108, 101, 109, 101, 110, 116, 115, 32, 83, 101, 110, 116, 105, 101, 110, 116, 32, 123, 10, 32, 32, 110, 97,
     109, 101, 58, 32, 83, 116, 114, 105, 110, 103, 33, 10, 32, 32, 104, 111, 109, 101, 80, 108, 97, 110, 101, 116, 58, 32, 83, 116, 114,
     105, 110, 103, 10, 125, 10, 10, 116, 121, 112, 101, 32, 72, 117, 109, 97, 110, 32, 105, 109, 112, 108, 101, 109, 101, 110, 116, 115,
     32, 83, 101, 110, 116, 105, 101, 110, 116, 32, 123, 10, 32, 32, 110, 97, 109, 101, 58, 32, 83, 116, 114, 105, 110, 103, 33, 10, 125,
     10, 10, 101, 110, 117, 109, 32, 67, 97, 116, 67, 111, 109, 109, 97, 110, 100, 32, 123, 10, 32, 32, 74, 85, 77, 80, 10, 125, 10, 10,
     116, 121, 112, 101, 32, 67, 97, 116, 32, 105, 109, 112, 108, 101, 109, 101, 110, 116, 115, 32, 80, 101, 116, 32, 123, 10, 32, 32, 110,
     97, 109, 101, 58, 32, 83, 116, 114, 105, 110, 103, 33, 10, 32, 32, 110, 105, 99, 107, 110, 97, 109, 101, 58, 32, 83, 116, 114, 105,
     110, 103, 10, 32, 32, 100, 111, 101, 115, 75, 110, 111, 119, 67, 111, 109, 109, 97, 110, 100, 40, 99, 97, 116, 67, 111, 109, 109, 97,
     110, 100, 58, 32, 67, 97, 116, 67, 111, 109, 109, 97, 110, 100, 33, 41, 58, 32, 66, 111, 111, 108, 101, 97, 110, 33, 10, 32, 32, 109,
     101, 111, 119, 86, 111, 108, 117, 109, 101, 58, 32, 73, 110, 116, 10, 125, 10, 10, 117, 110, 105, 111, 110, 32, 67, 97, 116, 79, 114,
     68, 111, 103, 32, 61, 32, 67, 97, 116, 32, 124, 32, 68, 111, 103, 10, 10, 117, 110, 105, 111, 110, 32, 68, 111, 103, 79, 114, 72, 117,
     109, 97, 110, 32, 61, 32, 68, 111, 103, 32, 124, 32, 72, 117, 109, 97, 110, 10, 10, 117, 110, 105, 111, 110, 32, 72, 117, 109, 97, 110,
     79, 114, 65, 108, 105, 101, 110, 32, 61, 32, 72, 117, 109, 97, 110, 32, 124, 32, 65, 108, 105, 101, 110] = true := by decide +kernel

/-- exhaustiveTest, part 1 -/
example : sdumpCase
    [113, 117, 101, 114, 121, 32, 86, 97, 114, 40, 36, 118, 58, 32, 73, 110, 116, 33, 32, 61, 32, 36, 118, 97, 114, 41, 32, 123, 10, 32, 32,
     115, 101, 108, 101, 99, 116, 105, 111, 110, 10, 125, 10, 10, 113, 117, 101, 114, 121, 32, 86, 97, 114, 115, 40, 36, 118, 58, 32, 73,
     110, 116, 33, 32, 61, 32, 36, 118, 97, 114, 44, 32, 36, 105, 58, 32, 73, 110, 116, 33, 32, 61, 32, 49, 50, 51, 44, 32, 36, 102, 58, 32,
     70, 108, 111, 97, 116, 33, 32, 61, 32, 49, 46, 50, 51, 101, 43, 49, 48, 44, 32, 36, 115, 58, 32, 83, 116, 114, 105, 110, 103, 33, 32,
     61, 32, 34, 115, 116, 114, 105, 110, 103, 34, 41, 32, 123, 10, 32, 32, 115, 101, 108, 101, 99, 116, 105, 111, 110, 10, 125, 10, 10,
     113, 117, 101, 114, 121, 32, 86, 97, 114, 115, 50, 40, 36, 98, 58, 32, 66, 111, 111, 108, 101, 97, 110, 33, 32, 61, 32, 116, 114, 117,
     101, 44, 32, 36, 98, 50, 58, 32, 66, 111, 111, 108, 101, 97, 110, 33, 32, 61, 32, 102, 97, 108, 115, 101, 44, 32, 36, 110, 58, 32, 73,
     110, 116, 32, 61, 32, 110, 117, 108, 108, 44, 32, 36, 101, 58, 32, 69, 110, 117, 109, 32, 61, 32, 69, 78, 85, 77, 95, 86, 65, 76, 85,
     69, 41, 32, 123, 10, 32, 32, 115, 101, 108, 101, 99, 116, 105, 111, 110, 10, 125] = true := by decide +kernel

/-- exhaustiveTest, part 2 -/
example : sdumpCase
    [113, 117, 101, 114, 121, 32, 86, 97, 114, 115, 51, 40, 36, 108, 58, 32, 91, 73, 110, 116, 33, 93, 33, 32, 61, 32, 91, 49, 44, 32, 50,
     44, 32, 51, 93, 44, 32, 36, 111, 58, 32, 80, 111, 105, 110, 116, 50, 68, 32, 61, 32, 123, 32, 120, 58, 32, 49, 46, 50, 44, 32, 121, 58,
     32, 51, 46, 52, 32, 125, 41, 32, 123, 10, 32, 32, 115, 101, 108, 101, 99, 116, 105, 111, 110, 10, 125, 10, 10, 113, 117, 101, 114, 121,
     32, 68, 105, 114, 101, 99, 116, 105, 118, 101, 32, 64, 102, 111, 111, 32, 123, 10, 32, 32, 115, 101, 108, 101, 99, 116, 105, 111, 110,
     10, 125, 10, 10, 113, 117, 101, 114, 121, 32, 68, 105, 114, 101, 99, 116, 105, 118, 101, 115, 32, 64, 102, 111, 111, 40, 98, 97, 114,
     58, 32, 36, 98, 97, 122, 44, 32, 98, 97, 122, 58, 32, 34, 113, 117, 120, 34, 41, 32, 64, 98, 97, 114, 32, 64, 98, 97, 122, 40, 102,
     111, 111, 58, 32, 49, 50, 51, 41, 32, 123, 10, 32, 32, 115, 101, 108, 101, 99, 116, 105, 111, 110, 10, 125] = true := by decide +kernel

/-- exhaustiveTest, part 3 -/
example : sdumpCase
    [113, 117, 101, 114, 121, 32, 83, 101, 108, 101, 99, 116, 105, 111, 110, 32, 123, 10, 32, 32, 115, 101, 108, 101, 99, 116, 105, 111,
     110, 10, 125, 10, 10, 113, 117, 101, 114, 121, 32, 83, 101, 108, 101, 99, 116, 105, 111, 110, 115, 32, 123, 10, 32, 32, 115, 101, 108,
     101, 99, 116, 105, 111, 110, 49, 10, 32, 32, 115, 101, 108, 101, 99, 116, 105, 111, 110, 50, 10, 32, 32, 115, 101, 108, 101, 99, 116,
     105, 111, 110, 51, 32, 64, 102, 111, 111, 10, 32, 32, 115, 101, 108, 101, 99, 116, 105, 111, 110, 52, 32, 64, 98, 97, 114, 40, 98, 97,
     122, 58, 32, 34, 113, 117, 120, 34, 41, 10, 32, 32, 115, 101, 108, 101, 99, 116, 105, 111, 110, 53, 32, 64, 98, 97, 122, 40, 113, 117,
     120, 58, 32, 49, 50, 51, 41, 32, 64, 102, 111, 111, 32, 64, 98, 97, 114, 32, 123, 10, 32, 32, 32, 32, 110, 101, 115, 116, 101, 100, 32,
     123, 10, 32, 32, 32, 32, 32, 32, 97, 108, 105, 97, 115, 101, 100, 58, 32, 115, 101, 108, 101, 99, 116, 105, 111, 110, 115, 10, 32, 32,
     32, 32, 125, 10, 32, 32, 125, 10, 125] = true := by decide +kernel

/-- exhaustiveTest, part 4 -/
example : sdumpCase
    [113, 117, 101, 114, 121, 32, 70, 114, 97, 103, 115, 32, 123, 10, 32, 32, 46, 46, 46, 117, 115, 101, 114, 70, 105, 101, 108, 100, 115,
     32, 64, 116, 101, 115, 116, 121, 116, 101, 115, 116, 121, 10, 32, 32, 46, 46, 46, 32, 111, 110, 32, 85, 115, 101, 114, 32, 64, 101,
     120, 99, 108, 117, 100, 101, 40, 110, 111, 116, 58, 32, 36, 110, 111, 73, 110, 102, 111, 41, 32, 123, 10, 32, 32, 32, 32, 112, 97, 108,
     115, 58, 32, 102, 114, 105, 101, 110, 100, 115, 32, 123, 10, 32, 32, 32, 32, 32, 32, 99, 111, 117, 110, 116, 10, 32, 32, 32, 32, 125,
     10, 32, 32, 125, 10, 32, 32, 46, 46, 46, 32, 64, 105, 110, 99, 108, 117, 100, 101, 40, 105, 102, 58, 32, 36, 101, 120, 112, 97, 110,
     100, 101, 100, 73, 110, 102, 111, 41, 32, 123, 10, 32, 32, 32, 32, 102, 105, 114, 115, 116, 78, 97, 109, 101, 10, 32, 32, 32, 32, 108,
     97, 115, 116, 78, 97, 109, 101, 10, 32, 32, 32, 32, 98, 105, 114, 116, 104, 100, 97, 121, 10, 32, 32, 125, 10, 125, 10, 10, 109, 117,
     116, 97, 116, 105, 111, 110, 32, 115, 101, 99, 111, 110, 100, 40, 36, 118, 97, 114, 105, 97, 98, 108, 101, 58, 32, 83, 116, 114, 105,
     110, 103, 32, 61, 32, 34, 116, 101, 115, 116, 34, 41, 32, 123, 10, 32, 32, 115, 101, 110, 100, 69, 109, 97, 105, 108, 40, 109, 101,
     115, 115, 97, 103, 101, 58, 32, 34, 34, 34, 10, 32, 32, 32, 32, 72, 101, 108, 108, 111, 44, 10, 32, 32, 32, 32, 32, 32, 87, 111, 114,
     108, 100, 33, 32, 92, 34, 34, 34, 10, 32, 32, 32, 32, 10, 32, 32, 32, 32, 92, 117, 48, 48, 56, 48, 32, 92, 117, 55, 53, 52, 99, 32,
     240, 159, 152, 128, 32, 92, 34, 10, 32, 32, 32, 32, 10, 32, 32, 32, 32, 89, 111, 117, 114, 115, 44, 10, 32, 32, 32, 32, 32, 32, 71,
     114, 97, 112, 104, 81, 76, 10, 32, 32, 34, 34, 34, 41, 10, 32, 32, 115, 101, 110, 100, 69, 109, 97, 105, 108, 50, 40, 109, 101, 115,
     115, 97, 103, 101, 58, 32, 34, 72, 101, 108, 108, 111, 44, 32, 87, 111, 114, 108, 100, 33, 92, 116, 89, 111, 117, 114, 115, 44, 32, 92,
     117, 48, 48, 56, 48, 32, 92, 117, 55, 53, 52, 99, 32, 240, 159, 152, 128, 32, 92, 34, 32, 92, 92, 32, 92, 47, 32, 92, 98, 32, 92, 102,
     32, 92, 116, 32, 71, 114, 97, 112, 104, 81, 76, 46, 34, 41, 10, 32, 32, 105, 110, 116, 86, 97, 108, 40, 102, 111, 111, 58, 32, 49, 50,
     51, 52, 53, 41, 10, 32, 32, 102, 108, 111, 97, 116, 86, 97, 108, 40, 98, 97, 114, 58, 32, 49, 50, 51, 46, 52, 53, 54, 41, 10, 32, 32,
     102, 108, 111, 97, 116, 86, 97, 108, 50, 40, 98, 97, 114, 58, 32, 49, 46, 50, 51, 52, 53, 54, 101, 43, 49, 48, 41, 10, 32, 32, 98, 111,
     111, 108, 86, 97, 108, 40, 98, 111, 111, 108, 58, 32, 102, 97, 108, 115, 101, 41, 10, 32, 32, 108, 105, 115, 116, 86, 97, 108, 40, 108,
     105, 115, 116, 58, 32, 91, 49, 44, 32, 50, 44, 32, 51, 93, 41, 10, 32, 32, 118, 97, 114, 105, 97, 98, 108, 101, 86, 97, 108, 40, 118,
     97, 114, 58, 32, 36, 118, 97, 114, 105, 97, 98, 108, 101, 41, 10, 125] = true := by decide +kernel

/-- exhaustiveTest, part 5 -/
example : sdumpCase
    [102, 114, 97, 103, 109, 101, 110, 116, 32, 117, 115, 101, 114, 70, 105, 101, 108, 100, 115, 32, 111, 110, 32, 85, 115, 101, 114, 32,
     123, 10, 32, 32, 102, 105, 114, 115, 116, 78, 97, 109, 101, 10, 32, 32, 108, 97, 115, 116, 78, 97, 109, 101, 10, 32, 32, 116, 105, 116,
     108, 101, 10, 32, 32, 99, 111, 109, 112, 97, 110, 121, 32, 123, 10, 32, 32, 32, 32, 110, 97, 109, 101, 10, 32, 32, 32, 32, 115, 108,
     117, 103, 10, 32, 32, 125, 10, 32, 32, 101, 109, 97, 105, 108, 10, 32, 32, 109, 111, 98, 105, 108, 101, 10, 125, 10, 10, 102, 114, 97,
     103, 109, 101, 110, 116, 32, 112, 111, 115, 116, 70, 105, 101, 108, 100, 115, 32, 111, 110, 32, 83, 117, 98, 115, 99, 114, 105, 112,
     116, 105, 111, 110, 32, 64, 115, 107, 105, 112, 40, 105, 102, 58, 32, 36, 98, 97, 114, 44, 32, 100, 111, 58, 32, 36, 110, 111, 116, 41,
     32, 123, 10, 32, 32, 116, 105, 116, 108, 101, 10, 32, 32, 115, 117, 98, 116, 105, 116, 108, 101, 10, 32, 32, 115, 108, 117, 103, 10,
     32, 32, 99, 97, 116, 101, 103, 111, 114, 121, 32, 123, 10, 32, 32, 32, 32, 110, 97, 109, 101, 10, 32, 32, 32, 32, 115, 108, 117, 103,
     10, 32, 32, 125, 10, 32, 32, 99, 111, 110, 116, 101, 110, 116, 10, 125] = true := by decide +kernel

/-- exhaustiveTest, part 6 -/
example : sdumpCase
    [113, 117, 101, 114, 121, 32, 102, 105, 114, 115, 116, 40, 36, 102, 111, 111, 58, 32, 66, 111, 111, 108, 101, 97, 110, 32, 61, 32, 116,
     114, 117, 101, 44, 32, 36, 102, 111, 111, 58, 32, 66, 111, 111, 108, 101, 97, 110, 32, 61, 32, 116, 114, 117, 101, 41, 32, 123, 10, 32,
     32, 117, 115, 101, 114, 40, 105, 100, 58, 32, 34, 51, 57, 51, 49, 97, 51, 102, 99, 45, 100, 52, 102, 57, 45, 52, 102, 97, 97, 45, 98,
     99, 102, 53, 45, 56, 56, 50, 48, 50, 50, 54, 49, 55, 51, 55, 54, 34, 41, 32, 123, 10, 32, 32, 32, 32, 46, 46, 46, 117, 115, 101, 114,
     70, 105, 101, 108, 100, 115, 10, 32, 32, 125, 10, 32, 32, 112, 111, 115, 116, 40, 105, 100, 58, 32, 34, 52, 56, 57, 99, 57, 50, 53, 48,
     45, 53, 48, 98, 57, 45, 52, 54, 49, 50, 45, 98, 57, 51, 48, 45, 53, 54, 100, 99, 52, 101, 49, 97, 101, 52, 52, 101, 34, 41, 32, 123,
     10, 32, 32, 32, 32, 46, 46, 46, 112, 111, 115, 116, 70, 105, 101, 108, 100, 115, 10, 32, 32, 125, 10, 32, 32, 102, 111, 111, 97, 58,
     32, 102, 111, 111, 32, 64, 105, 110, 99, 108, 117, 100, 101, 40, 105, 102, 58, 32, 36, 102, 111, 111, 41, 10, 32, 32, 98, 97, 114, 97,
     58, 32, 98, 97, 114, 32, 64, 115, 107, 105, 112, 40, 105, 102, 58, 32, 36, 98, 97, 114, 41, 10, 32, 32, 98, 97, 122, 97, 58, 32, 98,
     97, 122, 32, 64, 103, 116, 40, 118, 97, 108, 58, 32, 36, 98, 97, 122, 41, 10, 32, 32, 46, 46, 46, 32, 64, 105, 110, 99, 108, 117, 100,
     101, 40, 105, 102, 58, 32, 36, 101, 120, 112, 97, 110, 100, 101, 100, 73, 110, 102, 111, 41, 32, 123, 10, 32, 32, 32, 32, 102, 105,
     114, 115, 116, 78, 97, 109, 101, 10, 32, 32, 32, 32, 108, 97, 115, 116, 78, 97, 109, 101, 10, 32, 32, 32, 32, 98, 105, 114, 116, 104,
     100, 97, 121, 10, 32, 32, 125, 10, 125, 10, 10, 115, 99, 104, 101, 109, 97, 32, 64, 102, 111, 111, 32, 64, 98, 97, 114, 32, 123, 10,
     32, 32, 113, 117, 101, 114, 121, 58, 32, 81, 117, 101, 114, 121, 10, 32, 32, 109, 117, 116, 97, 116, 105, 111, 110, 58, 32, 77, 117,
     116, 97, 116, 105, 111, 110, 10, 125] = true := by decide +kernel

/-- exhaustiveTest, part 7 -/
example : sdumpCase
    [34, 34, 34, 10, 68, 111, 99, 117, 109, 101, 110, 116, 97, 116, 105, 111, 110, 32, 98, 108, 111, 99, 107, 115, 32, 115, 104, 111, 117,
     108, 100, 32, 115, 117, 112, 112, 111, 114, 116, 10, 46, 46, 46, 109, 117, 108, 116, 105, 112, 108, 101, 32, 108, 105, 110, 101, 115,
     10, 10, 65, 110, 100, 32, 103, 97, 112, 115, 32, 105, 110, 32, 108, 105, 110, 101, 115, 10, 34, 34, 34, 10, 100, 105, 114, 101, 99,
     116, 105, 118, 101, 32, 64, 102, 111, 111, 32, 111, 110, 32, 81, 85, 69, 82, 89, 10, 10, 115, 99, 97, 108, 97, 114, 32, 74, 83, 79, 78,
     10, 10, 116, 121, 112, 101, 32, 80, 101, 114, 115, 111, 110, 32, 105, 109, 112, 108, 101, 109, 101, 110, 116, 115, 32, 78, 97, 109,
     101, 100, 69, 110, 116, 105, 116, 121, 32, 123, 10, 32, 32, 110, 97, 109, 101, 58, 32, 83, 116, 114, 105, 110, 103, 10, 32, 32, 119,
     101, 105, 103, 104, 116, 40, 101, 113, 117, 105, 112, 109, 101, 110, 116, 87, 101, 105, 103, 104, 116, 58, 32, 73, 110, 116, 44, 32,
     114, 111, 112, 101, 83, 116, 114, 101, 110, 103, 116, 104, 58, 32, 73, 110, 116, 41, 58, 32, 73, 110, 116, 10, 125] = true := by decide +kernel

/-- exhaustiveTest, part 8 -/
example : sdumpCase
    [116, 121, 112, 101, 32, 66, 117, 115, 105, 110, 101, 115, 115, 32, 105, 109, 112, 108, 101, 109, 101, 110, 116, 115, 32, 78, 97, 109,
     101, 100, 69, 110, 116, 105, 116, 121, 32, 38, 32, 86, 97, 108, 117, 101, 100, 69, 110, 116, 105, 116, 121, 32, 123, 10, 32, 32, 110,
     97, 109, 101, 58, 32, 83, 116, 114, 105, 110, 103, 10, 32, 32, 118, 97, 108, 117, 101, 58, 32, 73, 110, 116, 10, 32, 32, 101, 109, 112,
     108, 111, 121, 101, 101, 67, 111, 117, 110, 116, 58, 32, 73, 110, 116, 10, 125, 10, 10, 116, 121, 112, 101, 32, 67, 108, 105, 109, 98,
     105, 110, 103, 32, 105, 109, 112, 108, 101, 109, 101, 110, 116, 115, 10, 32, 32, 32, 32, 38, 32, 82, 111, 112, 101, 115, 10, 32, 32,
     32, 32, 38, 32, 82, 111, 99, 107, 115, 10, 32, 32, 32, 32, 38, 32, 67, 104, 97, 108, 107, 32, 123, 10, 32, 32, 110, 97, 109, 101, 58,
     32, 83, 116, 114, 105, 110, 103, 10, 32, 32, 119, 101, 105, 103, 104, 116, 58, 32, 73, 110, 116, 10, 125] = true := by decide +kernel

/-- exhaustiveTest, part 9 -/
example : sdumpCase
    [105, 110, 116, 101, 114, 102, 97, 99, 101, 32, 78, 97, 109, 101, 100, 69, 110, 116, 105, 116, 121, 32, 123, 10, 32, 32, 110, 97, 109,
     101, 58, 32, 83, 116, 114, 105, 110, 103, 10, 125, 10, 10, 105, 110, 116, 101, 114, 102, 97, 99, 101, 32, 86, 97, 108, 117, 101, 100,
     69, 110, 116, 105, 116, 121, 32, 123, 10, 32, 32, 118, 97, 108, 117, 101, 58, 32, 73, 110, 116, 10, 125, 10, 10, 117, 110, 105, 111,
     110, 32, 83, 109, 97, 108, 108, 101, 115, 116, 82, 101, 115, 117, 108, 116, 32, 61, 32, 68, 114, 105, 102, 116, 75, 105, 110, 103, 10,
     10, 117, 110, 105, 111, 110, 32, 83, 109, 97, 108, 108, 101, 114, 82, 101, 115, 117, 108, 116, 32, 61, 32, 68, 111, 110, 107, 101, 121,
     32, 124, 32, 75, 111, 110, 103, 10, 10, 117, 110, 105, 111, 110, 32, 66, 105, 103, 103, 101, 114, 82, 101, 115, 117, 108, 116, 32, 61,
     10, 32, 32, 124, 32, 79, 114, 97, 110, 103, 101, 10, 32, 32, 124, 32, 66, 108, 97, 99, 107, 10, 32, 32, 124, 32, 82, 88, 55] = true := by decide +kernel

/-- exhaustiveTest, part 10 -/
example : sdumpCase
    [101, 110, 117, 109, 32, 68, 105, 114, 101, 99, 116, 105, 111, 110, 32, 123, 10, 32, 32, 78, 79, 82, 84, 72, 10, 32, 32, 69, 65, 83, 84,
     10, 32, 32, 83, 79, 85, 84, 72, 10, 32, 32, 87, 69, 83, 84, 10, 125, 10, 10, 105, 110, 112, 117, 116, 32, 80, 111, 105, 110, 116, 50,
     68, 32, 123, 10, 32, 32, 120, 58, 32, 70, 108, 111, 97, 116, 10, 32, 32, 121, 58, 32, 70, 108, 111, 97, 116, 10, 125, 10, 10, 100, 105,
     114, 101, 99, 116, 105, 118, 101, 32, 64, 101, 120, 97, 109, 112, 108, 101, 32, 111, 110, 32, 70, 73, 69, 76, 68, 10, 10, 100, 105,
     114, 101, 99, 116, 105, 118, 101, 32, 64, 101, 120, 97, 109, 112, 108, 101, 32, 111, 110, 32, 70, 73, 69, 76, 68, 95, 68, 69, 70, 73,
     78, 73, 84, 73, 79, 78, 32, 124, 32, 65, 82, 71, 85, 77, 69, 78, 84, 95, 68, 69, 70, 73, 78, 73, 84, 73, 79, 78] = true := by decide +kernel

/-- exhaustiveTest, part 11 -/
example : sdumpCase
    [100, 105, 114, 101, 99, 116, 105, 118, 101, 32, 64, 101, 120, 97, 109, 112, 108, 101, 32, 111, 110, 10, 32, 32, 124, 32, 70, 73, 69,
     76, 68, 10, 32, 32, 124, 32, 70, 82, 65, 71, 77, 69, 78, 84, 95, 83, 80, 82, 69, 65, 68, 10, 32, 32, 124, 32, 73, 78, 76, 73, 78, 69,
     95, 70, 82, 65, 71, 77, 69, 78, 84, 10, 10, 101, 120, 116, 101, 110, 100, 32, 115, 99, 104, 101, 109, 97, 32, 64, 116, 111, 110, 105,
     103, 104, 116, 10, 10, 101, 120, 116, 101, 110, 100, 32, 115, 99, 104, 101, 109, 97, 32, 123, 10, 32, 32, 113, 117, 101, 114, 121, 58,
     32, 84, 104, 101, 66, 114, 97, 105, 110, 10, 32, 32, 109, 117, 116, 97, 116, 105, 111, 110, 58, 32, 80, 105, 110, 107, 121, 10, 125,
     10, 10, 101, 120, 116, 101, 110, 100, 32, 115, 99, 97, 108, 97, 114, 32, 73, 110, 116, 121, 84, 104, 105, 110, 103, 32, 64, 97, 100,
     100] = true := by decide +kernel

/-- exhaustiveTest, part 12 -/
example : sdumpCase
    [101, 120, 116, 101, 110, 100, 32, 116, 121, 112, 101, 32, 67, 97, 114, 32, 105, 109, 112, 108, 101, 109, 101, 110, 116, 115, 32, 84,
     114, 97, 110, 115, 112, 111, 114, 116, 32, 123, 10, 34, 34, 34, 10, 83, 104, 111, 117, 108, 100, 32, 116, 104, 101, 32, 113, 117, 111,
     116, 101, 115, 32, 97, 114, 111, 117, 110, 100, 32, 116, 104, 105, 115, 32, 98, 101, 32, 105, 110, 100, 101, 110, 116, 101, 100, 32,
     116, 104, 101, 32, 115, 97, 109, 101, 32, 97, 115, 32, 116, 104, 101, 32, 102, 105, 101, 108, 100, 115, 32, 98, 101, 108, 111, 119, 63,
     10, 73, 110, 100, 101, 110, 116, 97, 116, 105, 111, 110, 32, 105, 115, 32, 110, 111, 116, 32, 112, 114, 101, 115, 101, 114, 118, 101,
     100, 46, 10, 34, 34, 34, 10, 32, 32, 117, 112, 103, 114, 97, 100, 101, 40, 99, 111, 109, 112, 111, 110, 101, 110, 116, 58, 32, 67, 97,
     114, 67, 111, 109, 112, 111, 110, 101, 110, 116, 41, 58, 32, 67, 111, 115, 116, 10, 125, 10, 10, 101, 120, 116, 101, 110, 100, 32, 105,
     110, 116, 101, 114, 102, 97, 99, 101, 32, 78, 97, 109, 101, 100, 69, 110, 116, 105, 116, 121, 32, 64, 97, 100, 100, 101, 100, 68, 105,
     114, 101, 99, 116, 105, 118, 101] = true := by decide +kernel

/-- exhaustiveTest, part 13 -/
example : sdumpCase
    [101, 120, 116, 101, 110, 100, 32, 105, 110, 116, 101, 114, 102, 97, 99, 101, 32, 84, 114, 97, 110, 115, 112, 111, 114, 116, 32, 123,
     10, 32, 32, 99, 111, 115, 116, 58, 32, 73, 110, 116, 10, 125, 10, 10, 101, 120, 116, 101, 110, 100, 32, 117, 110, 105, 111, 110, 32,
     83, 109, 97, 108, 108, 101, 115, 116, 82, 101, 115, 117, 108, 116, 32, 61, 32, 78, 105, 115, 115, 97, 110, 51, 53, 48, 122, 10, 10,
     101, 120, 116, 101, 110, 100, 32, 101, 110, 117, 109, 32, 68, 105, 114, 101, 99, 116, 105, 111, 110, 32, 123, 10, 32, 32, 78, 79, 82,
     84, 72, 87, 69, 83, 84, 10, 32, 32, 78, 79, 82, 84, 72, 69, 65, 83, 84, 10, 125, 10, 10, 101, 120, 116, 101, 110, 100, 32, 105, 110,
     112, 117, 116, 32, 80, 111, 105, 110, 116, 50, 68, 32, 123, 10, 32, 32, 100, 105, 115, 116, 97, 110, 99, 101, 70, 114, 111, 109, 79,
     114, 105, 103, 105, 110, 58, 32, 76, 101, 110, 103, 116, 104, 10, 125] = true := by decide +kernel

/-! ### ast/ast_test.go: `Type.String` -/

example : (Ty.named b!"Foo" false).str = b!"Foo" := by decide
example : (Ty.list (.named b!"Bar" false) false).str = b!"[Bar]" := by decide
example : (Ty.named b!"Baz" true).str = b!"Baz!" := by decide
example : (Ty.list (.named b!"Qux" false) true).str = b!"[Qux]!" := by decide
example : (Ty.list (.named b!"Quux" true) true).str = b!"[Quux!]!" := by decide
example : (Ty.list (.list (.list (.named b!"Quuz" true) true) true) true).str = b!"[[[Quuz!]!]!]!" := by decide

/-! ### graphql/errors_test.go: `MarshalJSON` -/

example : marshalJSON { message := b!"Name for character with ID 1002 could not be fetched.", locations := [⟨6, 7⟩], path := [.str b!"hero", .str b!"heroFriends", .int 1, .str b!"name"] } =
    b!"{\"message\":\"Name for character with ID 1002 could not be fetched.\",\"locations\":[{\"line\":6,\"column\":7}],\"path\":[\"hero\",\"heroFriends\",1,\"name\"]}" := by
  decide +kernel

/-! ### validation/utils_test.go: `OrList`, `QuotedOrList` -/

example : orList [] = .panic := by decide +kernel
example : (quotedOrList []).1 = .panic := by decide +kernel
example : orList [b!"A"] = .ret b!"A" := by decide +kernel
example : (quotedOrList [b!"A"]).1 = .ret b!"\"A\"" := by decide +kernel
example : orList [b!"A", b!"B"] = .ret b!"A or B" := by decide +kernel
example : (quotedOrList [b!"A", b!"B"]).1 = .ret b!"\"A\" or \"B\"" := by decide +kernel
example : orList [b!"A", b!"B", b!"C"] = .ret b!"A, B, or C" := by decide +kernel
example : (quotedOrList [b!"A", b!"B", b!"C"]).1 = .ret b!"\"A\", \"B\", or \"C\"" := by decide +kernel
example : orList [b!"A", b!"B", b!"C", b!"D"] = .ret b!"A, B, C, or D" := by decide +kernel
example : (quotedOrList [b!"A", b!"B", b!"C", b!"D"]).1 = .ret b!"\"A\", \"B\", \"C\", or \"D\"" := by decide +kernel
example : orList [b!"A", b!"B", b!"C", b!"D", b!"E"] = .ret b!"A, B, C, D, or E" := by decide +kernel
example : (quotedOrList [b!"A", b!"B", b!"C", b!"D", b!"E"]).1 = .ret b!"\"A\", \"B\", \"C\", \"D\", or \"E\"" := by decide +kernel
example : orList [b!"A", b!"B", b!"C", b!"D", b!"E", b!"F"] = .ret b!"A, B, C, D, or E" := by decide +kernel
example : (quotedOrList [b!"A", b!"B", b!"C", b!"D", b!"E", b!"F"]).1 = .ret b!"\"A\", \"B\", \"C\", \"D\", or \"E\"" := by decide +kernel
example : orList [b!"A", b!"B", b!"C", b!"D", b!"E", b!"F", b!"G"] = .ret b!"A, B, C, D, or E" := by decide +kernel
example : (quotedOrList [b!"A", b!"B", b!"C", b!"D", b!"E", b!"F", b!"G"]).1 = .ret b!"\"A\", \"B\", \"C\", \"D\", or \"E\"" := by decide +kernel

/-! ### validation/validate_test.go: `TestValidate` -/

example : (match parse readFloat b!"\n\t\tquery { hello }\n\t\tquery { goodbye }\n\t" with
    | .ok d =>
      match validate d (some {}) (rulesWalker specified) with
      | .ret c => c.errors.length == 2
      | _ => false
    | _ => false) = true := by decide +kernel

/-! ### language/parser_test.go: `TestParser_Parse` -/

example : (match parse readFloat b!"\n\t\t\t# Really testing this location stuff here...\n\t\t\t{ hello }\n\t\t" with
    | .ok d => d.defs.map (fun x => (x.loc.line, x.loc.col)) == [(3, 4)]
    | _ => false) = true := by decide +kernel

/-! ### validation/walker_test.go: `TestWalker_Walk` -/

/-- What the enter handlers that a test adds see while the document is walked. -/
def entered (query : Bytes) (look : ANode → List Bytes) : Option (List Bytes) :=
  match parse readFloat query with
  | .ok d => some ((walkDocument d).flatMap fun e => match e with | .enter n => look n | .leave _ => [])
  | _ => none

/-- simple selection -/
example : entered b!"{ hello }" (fun n => match n with | .selection (.field _ name _ _ _) => [name] | .selection _ => [[]] | _ => []) =
    some [b!"hello"] := by decide +kernel

/-- simple type system -/
example : (entered b!"\n\t\t\t\ttype Climbing implements\n\t\t\t\t\t\t& Ropes\n\t\t\t\t\t\t& Rocks\n\t\t\t\t\t\t& Chalk {\n\t\t\t\t\tname: String\n\t\t\t\t\tweight: Int\n\t\t\t\t}\n\t\t\t"
    (fun n => match n with | .type t => [t.str] | _ => [])).map (·.length) = some 5 := by decide +kernel

/-- deeply nested directive -/
example : entered b!"\n\t\t\t\t{ foo { bar { baz { qux { quux { corge { uier { grault @garply } } } } } } } }\n\t\t\t"
    (fun n => match n with | .directive d => [d.name] | _ => []) = some [b!"garply"] := by decide +kernel

/-- item within list value -/
example : entered b!"\n\t\t\t\t{\n\t\t\t\t\tfoo(list: [\"bar\"])\n\t\t\t\t}\n\t\t\t"
    (fun n => match n with | .stringValue (.str s) => [s] | .stringValue _ => [[]] | _ => []) = some [b!"bar"] := by decide +kernel

/-- deeply nested object values -/
example : (entered b!"\n\t\t\t\tmutation {\n\t\t\t\t\tcreateMessage(input: {\n\t\t\t\t\t\tauthor: {\n\t\t\t\t\t\t\tname: \"seer\",\n\t\t\t\t\t\t},\n\t\t\t\t\t\tcontent: \"hope is a good thing\",\n\t\t\t\t\t}) {\n\t\t\t\t\t\tid\n\t\t\t\t\t}\n\t\t\t\t}\n\t\t\t"
    (fun n => match n with | .objectField name (.str s) => if name == b!"name" then [s] else [] | _ => [])) = some [b!"seer"] := by decide +kernel

/-- not walking pointer fields that aren't set -/
example : entered b!"\n\t\t\t\tquery {\n\t\t\t\t\thello\n\t\t\t\t}\n\t\t\t"
    (fun n => match n with | .directive d => [d.name] | _ => []) = some [] := by decide +kernel

/-- correct kind walk function(s) used -/
example : (entered b!"\n\t\t\t\tmutation CreateFoo($foo: int) {\n\t\t\t\t\tcreateFoo(foo: $foo) {\n\t\t\t\t\t\tname\n\t\t\t\t\t}\n\t\t\t\t}\n\t\t\t"
    (fun n => match n with | .mutationOperationDefinition _ | .queryOperationDefinition _ => [[]] | _ => [])).map (·.length) = some 1 := by decide +kernel

end GQL.Conformance
