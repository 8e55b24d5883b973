import Verif.Model.Lexer

/-!
# The model against the repository's own golden records of the lexer

These are tests of the model's fidelity, not proofs of properties. Each file
`language/testdata/ScanGolden.NNN.json` records the tokens, with their literals, lines and columns,
which the compiled lexer returned on one input (language/lexer_test.go:120-264). Each `example`
states that the model returns exactly these tokens on the bytes of that input. This file is generated from the JSON files.
-/
namespace GQL

/-- ScanGolden.001.json -/
example : tokens [48] =
    .ret [⟨.intValue, [48], 1, 1⟩, ⟨.eof, [], 1, 2⟩] := by
  decide +kernel

/-- ScanGolden.002.json -/
example : tokens [49, 50, 51, 52, 53, 54, 55, 56, 57] =
    .ret [⟨.intValue, [49, 50, 51, 52, 53, 54, 55, 56, 57], 1, 1⟩, ⟨.eof, [], 1, 10⟩] := by
  decide +kernel

/-- ScanGolden.003.json -/
example : tokens [45, 49, 50, 51, 52, 53, 54, 55, 56, 57] =
    .ret [⟨.intValue, [45, 49, 50, 51, 52, 53, 54, 55, 56, 57], 1, 1⟩, ⟨.eof, [], 1, 11⟩] := by
  decide +kernel

/-- ScanGolden.004.json -/
example : tokens [49, 46, 49] =
    .ret [⟨.floatValue, [49, 46, 49], 1, 1⟩, ⟨.eof, [], 1, 4⟩] := by
  decide +kernel

/-- ScanGolden.005.json -/
example : tokens [45, 49, 46, 49] =
    .ret [⟨.floatValue, [45, 49, 46, 49], 1, 1⟩, ⟨.eof, [], 1, 5⟩] := by
  decide +kernel

/-- ScanGolden.006.json -/
example : tokens [49, 48, 69, 57, 57] =
    .ret [⟨.floatValue, [49, 48, 69, 57, 57], 1, 1⟩, ⟨.eof, [], 1, 6⟩] := by
  decide +kernel

/-- ScanGolden.007.json -/
example : tokens [45, 49, 48, 69, 57, 57] =
    .ret [⟨.floatValue, [45, 49, 48, 69, 57, 57], 1, 1⟩, ⟨.eof, [], 1, 7⟩] := by
  decide +kernel

/-- ScanGolden.008.json -/
example : tokens [49, 46, 49, 101, 57, 57] =
    .ret [⟨.floatValue, [49, 46, 49, 101, 57, 57], 1, 1⟩, ⟨.eof, [], 1, 7⟩] := by
  decide +kernel

/-- ScanGolden.009.json -/
example : tokens [45, 49, 46, 49, 101, 45, 57, 57] =
    .ret [⟨.floatValue, [45, 49, 46, 49, 101, 45, 57, 57], 1, 1⟩, ⟨.eof, [], 1, 9⟩] := by
  decide +kernel

/-- ScanGolden.010.json -/
example : tokens [45] =
    .ret [⟨.illegal, [105, 110, 118, 97, 108, 105, 100, 32, 110, 117, 109, 98, 101, 114, 44, 32, 101, 120, 112, 101, 99, 116, 101, 100, 32, 100, 105, 103, 105, 116, 32, 98, 117, 116, 32, 103, 111, 116, 58, 32, 39, 92, 120, 48, 48, 39], 1, 1⟩] := by
  decide +kernel

/-- ScanGolden.011.json -/
example : tokens [45, 231, 149, 140] =
    .ret [⟨.illegal, [105, 110, 118, 97, 108, 105, 100, 32, 110, 117, 109, 98, 101, 114, 44, 32, 101, 120, 112, 101, 99, 116, 101, 100, 32, 100, 105, 103, 105, 116, 32, 98, 117, 116, 32, 103, 111, 116, 58, 32, 39, 231, 149, 140, 39], 1, 1⟩] := by
  decide +kernel

/-- ScanGolden.012.json -/
example : tokens [49, 46, 231, 149, 140] =
    .ret [⟨.illegal, [105, 110, 118, 97, 108, 105, 100, 32, 110, 117, 109, 98, 101, 114, 44, 32, 101, 120, 112, 101, 99, 116, 101, 100, 32, 100, 105, 103, 105, 116, 32, 98, 117, 116, 32, 103, 111, 116, 58, 32, 39, 231, 149, 140, 39], 1, 1⟩] := by
  decide +kernel

/-- ScanGolden.013.json -/
example : tokens [48, 49] =
    .ret [⟨.illegal, [105, 110, 118, 97, 108, 105, 100, 32, 110, 117, 109, 98, 101, 114, 44, 32, 117, 110, 101, 120, 112, 101, 99, 116, 101, 100, 32, 100, 105, 103, 105, 116, 32, 97, 102, 116, 101, 114, 32, 48, 58, 32, 39, 49, 39], 1, 1⟩] := by
  decide +kernel

/-- ScanGolden.014.json -/
example : tokens [45, 49, 46, 49, 101, 231, 149, 140] =
    .ret [⟨.illegal, [105, 110, 118, 97, 108, 105, 100, 32, 110, 117, 109, 98, 101, 114, 44, 32, 101, 120, 112, 101, 99, 116, 101, 100, 32, 100, 105, 103, 105, 116, 32, 98, 117, 116, 32, 103, 111, 116, 58, 32, 39, 231, 149, 140, 39], 1, 1⟩] := by
  decide +kernel

/-- ScanGolden.101.json -/
example : tokens [33, 36, 40, 41, 46, 46, 46, 58, 61, 64, 91, 93, 123, 124, 125] =
    .ret [⟨.punctuator, [33], 1, 1⟩, ⟨.punctuator, [36], 1, 2⟩, ⟨.punctuator, [40], 1, 3⟩, ⟨.punctuator, [41], 1, 4⟩, ⟨.punctuator, [46, 46, 46], 1, 5⟩, ⟨.punctuator, [58], 1, 8⟩, ⟨.punctuator, [61], 1, 9⟩, ⟨.punctuator, [64], 1, 10⟩, ⟨.punctuator, [91], 1, 11⟩, ⟨.punctuator, [93], 1, 12⟩, ⟨.punctuator, [123], 1, 13⟩, ⟨.punctuator, [124], 1, 14⟩, ⟨.punctuator, [125], 1, 15⟩, ⟨.eof, [], 1, 16⟩] := by
  decide +kernel

/-- ScanGolden.102.json -/
example : tokens [32, 33, 32, 36, 32, 40, 32, 41, 32, 46, 46, 46, 32, 58, 32, 61, 32, 64, 32, 91, 32, 93, 32, 123, 32, 124, 32, 125] =
    .ret [⟨.punctuator, [33], 1, 2⟩, ⟨.punctuator, [36], 1, 4⟩, ⟨.punctuator, [40], 1, 6⟩, ⟨.punctuator, [41], 1, 8⟩, ⟨.punctuator, [46, 46, 46], 1, 10⟩, ⟨.punctuator, [58], 1, 14⟩, ⟨.punctuator, [61], 1, 16⟩, ⟨.punctuator, [64], 1, 18⟩, ⟨.punctuator, [91], 1, 20⟩, ⟨.punctuator, [93], 1, 22⟩, ⟨.punctuator, [123], 1, 24⟩, ⟨.punctuator, [124], 1, 26⟩, ⟨.punctuator, [125], 1, 28⟩, ⟨.eof, [], 1, 29⟩] := by
  decide +kernel

/-- ScanGolden.103.json -/
example : tokens [46, 231, 149, 140, 231, 149, 140] =
    .ret [⟨.illegal, [105, 110, 118, 97, 108, 105, 100, 32, 112, 117, 110, 99, 116, 117, 97, 116, 111, 114, 44, 32, 101, 120, 112, 101, 99, 116, 101, 100, 32, 34, 46, 46, 46, 34, 32, 98, 117, 116, 32, 103, 111, 116, 58, 32, 34, 46, 231, 149, 140, 231, 149, 140, 34], 1, 1⟩] := by
  decide +kernel

/-- ScanGolden.201.json -/
example : tokens [35, 32, 111, 110, 108, 121, 32, 99, 111, 109, 109, 101, 110, 116] =
    .ret [⟨.eof, [], 1, 15⟩] := by
  decide +kernel

/-- ScanGolden.202.json -/
example : tokens [35, 32, 108, 105, 110, 101, 32, 49, 13, 102, 111, 111] =
    .ret [⟨.name, [102, 111, 111], 2, 1⟩, ⟨.eof, [], 2, 4⟩] := by
  decide +kernel

/-- ScanGolden.203.json -/
example : tokens [35, 32, 108, 105, 110, 101, 32, 49, 10, 102, 111, 111] =
    .ret [⟨.name, [102, 111, 111], 2, 1⟩, ⟨.eof, [], 2, 4⟩] := by
  decide +kernel

/-- ScanGolden.204.json -/
example : tokens [35, 32, 108, 105, 110, 101, 32, 49, 13, 10, 102, 111, 111] =
    .ret [⟨.name, [102, 111, 111], 2, 1⟩, ⟨.eof, [], 2, 4⟩] := by
  decide +kernel

/-- ScanGolden.205.json -/
example : tokens [35, 32, 108, 105, 110, 101, 32, 49, 10, 13, 102, 111, 111] =
    .ret [⟨.name, [102, 111, 111], 3, 1⟩, ⟨.eof, [], 3, 4⟩] := by
  decide +kernel

/-- ScanGolden.206.json -/
example : tokens [35, 32, 108, 105, 110, 101, 32, 49, 13, 35, 32, 108, 105, 110, 101, 32, 50, 13, 113, 117, 101, 114, 121] =
    .ret [⟨.name, [113, 117, 101, 114, 121], 3, 1⟩, ⟨.eof, [], 3, 6⟩] := by
  decide +kernel

/-- ScanGolden.207.json -/
example : tokens [35, 32, 108, 105, 110, 101, 32, 49, 10, 35, 32, 108, 105, 110, 101, 32, 50, 10, 113, 117, 101, 114, 121] =
    .ret [⟨.name, [113, 117, 101, 114, 121], 3, 1⟩, ⟨.eof, [], 3, 6⟩] := by
  decide +kernel

/-- ScanGolden.208.json -/
example : tokens [35, 32, 108, 105, 110, 101, 32, 49, 13, 10, 35, 32, 108, 105, 110, 101, 32, 50, 13, 10, 113, 117, 101, 114, 121] =
    .ret [⟨.name, [113, 117, 101, 114, 121], 3, 1⟩, ⟨.eof, [], 3, 6⟩] := by
  decide +kernel

/-- ScanGolden.301.json -/
example : tokens [34, 102, 111, 111, 34] =
    .ret [⟨.stringValue, [102, 111, 111], 1, 1⟩, ⟨.eof, [], 1, 6⟩] := by
  decide +kernel

/-- ScanGolden.302.json -/
example : tokens [34, 102, 111, 111, 32, 92, 110, 32, 98, 97, 114, 34] =
    .ret [⟨.stringValue, [102, 111, 111, 32, 10, 32, 98, 97, 114], 1, 1⟩, ⟨.eof, [], 1, 13⟩] := by
  decide +kernel

/-- ScanGolden.303.json -/
example : tokens [34, 102, 111, 111, 32, 92, 117, 52, 101, 49, 54, 34] =
    .ret [⟨.stringValue, [102, 111, 111, 32, 228, 184, 150], 1, 1⟩, ⟨.eof, [], 1, 13⟩] := by
  decide +kernel

/-- ScanGolden.304.json -/
example : tokens [34, 102, 111, 111] =
    .ret [⟨.illegal, [105, 110, 118, 97, 108, 105, 100, 32, 99, 104, 97, 114, 97, 99, 116, 101, 114, 32, 119, 105, 116, 104, 105, 110, 32, 115, 116, 114, 105, 110, 103, 58, 32, 39, 92, 120, 48, 48, 39], 1, 1⟩] := by
  decide +kernel

/-- ScanGolden.305.json -/
example : tokens [34, 92, 34, 34] =
    .ret [⟨.stringValue, [34], 1, 1⟩, ⟨.eof, [], 1, 5⟩] := by
  decide +kernel

/-- ScanGolden.306.json -/
example : tokens [34, 92, 92, 34] =
    .ret [⟨.stringValue, [92], 1, 1⟩, ⟨.eof, [], 1, 5⟩] := by
  decide +kernel

/-- ScanGolden.307.json -/
example : tokens [34, 92, 47, 34] =
    .ret [⟨.stringValue, [47], 1, 1⟩, ⟨.eof, [], 1, 5⟩] := by
  decide +kernel

/-- ScanGolden.308.json -/
example : tokens [34, 92, 98, 34] =
    .ret [⟨.stringValue, [8], 1, 1⟩, ⟨.eof, [], 1, 5⟩] := by
  decide +kernel

/-- ScanGolden.309.json -/
example : tokens [34, 92, 102, 34] =
    .ret [⟨.stringValue, [12], 1, 1⟩, ⟨.eof, [], 1, 5⟩] := by
  decide +kernel

/-- ScanGolden.310.json -/
example : tokens [34, 92, 110, 34] =
    .ret [⟨.stringValue, [10], 1, 1⟩, ⟨.eof, [], 1, 5⟩] := by
  decide +kernel

/-- ScanGolden.311.json -/
example : tokens [34, 92, 114, 34] =
    .ret [⟨.stringValue, [13], 1, 1⟩, ⟨.eof, [], 1, 5⟩] := by
  decide +kernel

/-- ScanGolden.312.json -/
example : tokens [34, 92, 116, 34] =
    .ret [⟨.stringValue, [9], 1, 1⟩, ⟨.eof, [], 1, 5⟩] := by
  decide +kernel

/-- ScanGolden.313.json -/
example : tokens [34, 92, 117, 65, 90, 34] =
    .ret [⟨.illegal, [105, 110, 118, 97, 108, 105, 100, 32, 99, 104, 97, 114, 97, 99, 116, 101, 114, 32, 119, 105, 116, 104, 105, 110, 32, 115, 116, 114, 105, 110, 103, 58, 32, 39, 92, 120, 48, 48, 39], 1, 1⟩] := by
  decide +kernel

/-- ScanGolden.314.json -/
example : tokens [34, 92, 122, 34] =
    .ret [⟨.illegal, [105, 110, 118, 97, 108, 105, 100, 32, 99, 104, 97, 114, 97, 99, 116, 101, 114, 32, 101, 115, 99, 97, 112, 101, 32, 115, 101, 113, 117, 101, 110, 99, 101, 58, 32, 92, 122], 1, 1⟩] := by
  decide +kernel

/-- ScanGolden.315.json -/
example : tokens [34, 102, 111, 111, 10, 34] =
    .ret [⟨.illegal, [105, 110, 118, 97, 108, 105, 100, 32, 99, 104, 97, 114, 97, 99, 116, 101, 114, 32, 119, 105, 116, 104, 105, 110, 32, 115, 116, 114, 105, 110, 103, 58, 32, 39, 92, 110, 39], 1, 1⟩] := by
  decide +kernel

/-- ScanGolden.316.json -/
example : tokens [34, 102, 111, 111, 13, 10, 34] =
    .ret [⟨.illegal, [105, 110, 118, 97, 108, 105, 100, 32, 99, 104, 97, 114, 97, 99, 116, 101, 114, 32, 119, 105, 116, 104, 105, 110, 32, 115, 116, 114, 105, 110, 103, 58, 32, 39, 92, 114, 39], 1, 1⟩] := by
  decide +kernel

/-- ScanGolden.317.json -/
example : tokens [34, 92, 117, 65, 122, 65, 122, 34] =
    .ret [⟨.illegal, [105, 110, 118, 97, 108, 105, 100, 32, 99, 104, 97, 114, 97, 99, 116, 101, 114, 32, 101, 115, 99, 97, 112, 101, 32, 115, 101, 113, 117, 101, 110, 99, 101, 58, 32, 92, 117, 65, 122, 65, 122], 1, 1⟩] := by
  decide +kernel

/-- ScanGolden.318.json -/
example : tokens [34, 92, 117, 48, 48, 56, 48, 34] =
    .ret [⟨.stringValue, [194, 128], 1, 1⟩, ⟨.eof, [], 1, 9⟩] := by
  decide +kernel

/-- ScanGolden.319.json -/
example : tokens [34, 92, 117, 70, 70, 70, 70, 34] =
    .ret [⟨.stringValue, [239, 191, 191], 1, 1⟩, ⟨.eof, [], 1, 9⟩] := by
  decide +kernel

/-- ScanGolden.320.json -/
example : tokens [34, 240, 159, 152, 128, 34] =
    .ret [⟨.stringValue, [240, 159, 152, 128], 1, 1⟩, ⟨.eof, [], 1, 4⟩] := by
  decide +kernel

/-- ScanGolden.321.json -/
example : tokens [34, 92, 117, 68, 56, 48, 48, 34] =
    .ret [⟨.stringValue, [239, 191, 189], 1, 1⟩, ⟨.eof, [], 1, 9⟩] := by
  decide +kernel

/-- ScanGolden.401.json -/
example : tokens [34, 34, 34, 34, 34, 34] =
    .ret [⟨.stringValue, [], 1, 1⟩, ⟨.eof, [], 1, 7⟩] := by
  decide +kernel

/-- ScanGolden.402.json -/
example : tokens [34, 34, 34, 102, 111, 111, 34, 34, 34] =
    .ret [⟨.stringValue, [102, 111, 111], 1, 1⟩, ⟨.eof, [], 1, 10⟩] := by
  decide +kernel

/-- ScanGolden.403.json -/
example : tokens [34, 34, 34, 102, 111, 111, 32, 34, 34, 32, 98, 97, 114, 34, 34, 34] =
    .ret [⟨.stringValue, [102, 111, 111, 32, 34, 34, 32, 98, 97, 114], 1, 1⟩, ⟨.eof, [], 1, 17⟩] := by
  decide +kernel

/-- ScanGolden.404.json -/
example : tokens [34, 34, 34, 92, 116, 32, 92, 117, 49, 50, 51, 52, 34, 34, 34] =
    .ret [⟨.stringValue, [92, 116, 32, 92, 117, 49, 50, 51, 52], 1, 1⟩, ⟨.eof, [], 1, 16⟩] := by
  decide +kernel

/-- ScanGolden.405.json -/
example : tokens [34, 34, 34, 13, 102, 111, 111, 13, 34, 34, 34] =
    .ret [⟨.stringValue, [102, 111, 111], 1, 1⟩, ⟨.eof, [], 3, 12⟩] := by
  decide +kernel

/-- ScanGolden.406.json -/
example : tokens [34, 34, 34, 10, 102, 111, 111, 10, 34, 34, 34] =
    .ret [⟨.stringValue, [102, 111, 111], 1, 1⟩, ⟨.eof, [], 3, 12⟩] := by
  decide +kernel

/-- ScanGolden.407.json -/
example : tokens [34, 34, 34, 13, 10, 102, 111, 111, 13, 10, 34, 34, 34] =
    .ret [⟨.stringValue, [102, 111, 111], 1, 1⟩, ⟨.eof, [], 5, 14⟩] := by
  decide +kernel

/-- ScanGolden.408.json -/
example : tokens [34, 34, 34, 10, 13, 102, 111, 111, 10, 13, 34, 34, 34] =
    .ret [⟨.stringValue, [102, 111, 111], 1, 1⟩, ⟨.eof, [], 5, 14⟩] := by
  decide +kernel

/-- ScanGolden.409.json -/
example : tokens [34, 34, 34, 13, 92, 34, 34, 34, 13, 34, 34, 34] =
    .ret [⟨.stringValue, [34, 34, 34], 1, 1⟩, ⟨.eof, [], 3, 13⟩] := by
  decide +kernel

/-- ScanGolden.410.json -/
example : tokens [34, 34, 34, 10, 92, 34, 34, 34, 10, 34, 34, 34] =
    .ret [⟨.stringValue, [34, 34, 34], 1, 1⟩, ⟨.eof, [], 3, 13⟩] := by
  decide +kernel

/-- ScanGolden.411.json -/
example : tokens [34, 34, 34, 13, 10, 92, 34, 34, 34, 13, 10, 34, 34, 34] =
    .ret [⟨.stringValue, [34, 34, 34], 1, 1⟩, ⟨.eof, [], 5, 15⟩] := by
  decide +kernel

/-- ScanGolden.412.json -/
example : tokens [34, 34, 34, 10, 13, 92, 34, 34, 34, 10, 13, 34, 34, 34] =
    .ret [⟨.stringValue, [34, 34, 34], 1, 1⟩, ⟨.eof, [], 5, 15⟩] := by
  decide +kernel

/-- ScanGolden.413.json -/
example : tokens [34, 34, 34, 102, 111, 111, 32, 92, 34, 34, 34, 32, 98, 97, 114, 34, 34, 34] =
    .ret [⟨.stringValue, [102, 111, 111, 32, 34, 34, 34, 32, 98, 97, 114], 1, 1⟩, ⟨.eof, [], 1, 19⟩] := by
  decide +kernel

/-- ScanGolden.414.json -/
example : tokens [34, 34, 34, 102, 111, 111, 32, 92, 117, 49, 50, 51, 52, 32, 34, 32, 92, 34, 34, 34, 34, 34, 34] =
    .ret [⟨.stringValue, [102, 111, 111, 32, 92, 117, 49, 50, 51, 52, 32, 34, 32, 34, 34, 34], 1, 1⟩, ⟨.eof, [], 1, 24⟩] := by
  decide +kernel

/-- ScanGolden.415.json -/
example : tokens [34, 34, 34, 34] =
    .ret [⟨.illegal, [117, 110, 101, 120, 112, 101, 99, 116, 101, 100, 32, 101, 111, 102, 44, 32, 112, 114, 111, 98, 97, 98, 108, 121, 32, 117, 110, 99, 108, 111, 115, 101, 100, 32, 98, 108, 111, 99, 107, 32, 115, 116, 114, 105, 110, 103], 1, 1⟩] := by
  decide +kernel

/-- ScanGolden.416.json -/
example : tokens [34, 34, 34, 34, 34] =
    .ret [⟨.illegal, [117, 110, 101, 120, 112, 101, 99, 116, 101, 100, 32, 101, 111, 102, 44, 32, 112, 114, 111, 98, 97, 98, 108, 121, 32, 117, 110, 99, 108, 111, 115, 101, 100, 32, 98, 108, 111, 99, 107, 32, 115, 116, 114, 105, 110, 103], 1, 1⟩] := by
  decide +kernel

/-- ScanGolden.417.json -/
example : tokens [34, 34, 34, 92, 34, 34, 34, 34, 34] =
    .ret [⟨.illegal, [117, 110, 101, 120, 112, 101, 99, 116, 101, 100, 32, 101, 111, 102, 44, 32, 112, 114, 111, 98, 97, 98, 108, 121, 32, 117, 110, 99, 108, 111, 115, 101, 100, 32, 98, 108, 111, 99, 107, 32, 115, 116, 114, 105, 110, 103], 1, 1⟩] := by
  decide +kernel

/-- ScanGolden.418.json -/
example : tokens [34, 34, 34, 92, 117, 49, 50, 51, 52, 34, 34] =
    .ret [⟨.illegal, [117, 110, 101, 120, 112, 101, 99, 116, 101, 100, 32, 101, 111, 102, 44, 32, 112, 114, 111, 98, 97, 98, 108, 121, 32, 117, 110, 99, 108, 111, 115, 101, 100, 32, 98, 108, 111, 99, 107, 32, 115, 116, 114, 105, 110, 103], 1, 1⟩] := by
  decide +kernel

/-- ScanGolden.419.json -/
example : tokens [34, 34, 34, 240, 159, 152, 128, 34, 34, 34] =
    .ret [⟨.stringValue, [240, 159, 152, 128], 1, 1⟩, ⟨.eof, [], 1, 8⟩] := by
  decide +kernel

/-- ScanGolden.420.json -/
example : tokens [34, 34, 34, 92, 34, 34, 97, 34, 34, 34] =
    .ret [⟨.stringValue, [92, 34, 34, 97], 1, 1⟩, ⟨.eof, [], 1, 11⟩] := by
  decide +kernel

/-- ScanGolden.998.json -/
example : tokens [113, 117, 101, 114, 121, 32, 102, 111, 111, 32, 240, 159, 152, 131, 32, 123, 32, 98, 97, 114, 32, 98, 97, 122, 32, 125] =
    .ret [⟨.name, [113, 117, 101, 114, 121], 1, 1⟩, ⟨.name, [102, 111, 111], 1, 7⟩, ⟨.illegal, [240, 159, 152, 131], 1, 11⟩] := by
  decide +kernel

/-- ScanGolden.999.json -/
example : tokens [10, 32, 32, 32, 32, 32, 32, 32, 32, 35, 32, 77, 117, 116, 97, 116, 105, 111, 110, 32, 102, 111, 114, 32, 116, 101, 115, 116, 105, 110, 103, 32, 100, 105, 102, 102, 101, 114, 101, 110, 116, 32, 116, 111, 107, 101, 110, 32, 116, 121, 112, 101, 115, 46, 10, 32, 32, 32, 32, 32, 32, 32, 32, 109, 117, 116, 97, 116, 105, 111, 110, 32, 123, 10, 32, 32, 32, 32, 32, 32, 32, 32, 32, 32, 32, 32, 99, 114, 101, 97, 116, 101, 80, 111, 115, 116, 40, 10, 32, 32, 32, 32, 32, 32, 32, 32, 32, 32, 32, 32, 32, 32, 32, 32, 105, 100, 58, 32, 49, 48, 50, 52, 10, 32, 32, 32, 32, 32, 32, 32, 32, 32, 32, 32, 32, 32, 32, 32, 32, 116, 105, 116, 108, 101, 58, 32, 34, 83, 116, 114, 105, 110, 103, 32, 86, 97, 108, 117, 101, 34, 10, 32, 32, 32, 32, 32, 32, 32, 32, 32, 32, 32, 32, 32, 32, 32, 32, 99, 111, 110, 116, 101, 110, 116, 58, 32, 34, 34, 34, 10, 32, 32, 32, 32, 32, 32, 32, 32, 32, 32, 32, 32, 32, 32, 32, 32, 32, 32, 32, 32, 72, 101, 108, 108, 111, 44, 10, 10, 32, 32, 32, 32, 32, 32, 32, 32, 32, 32, 32, 32, 32, 32, 32, 32, 32, 32, 32, 32, 32, 32, 32, 32, 87, 101, 108, 99, 111, 109, 101, 32, 116, 111, 32, 71, 114, 97, 112, 104, 81, 76, 46, 10, 32, 32, 32, 32, 32, 32, 32, 32, 32, 32, 32, 32, 32, 32, 32, 32, 32, 32, 32, 32, 32, 32, 32, 32, 76, 101, 116, 39, 115, 32, 109, 97, 107, 101, 32, 116, 104, 105, 115, 32, 115, 116, 114, 105, 110, 103, 32, 97, 32, 108, 105, 116, 116, 108, 101, 32, 98, 105, 103, 103, 101, 114, 32, 116, 104, 101, 110, 46, 32, 66, 101, 99, 97, 117, 115, 101, 32, 116, 104, 101, 32, 108, 97, 114, 103, 101, 114, 32, 116, 104, 105, 115, 32, 115, 116, 114, 105, 110, 103, 10, 32, 32, 32, 32, 32, 32, 32, 32, 32, 32, 32, 32, 32, 32, 32, 32, 32, 32, 32, 32, 32, 32, 32, 32, 98, 101, 99, 111, 109, 101, 115, 44, 32, 116, 104, 101, 32, 109, 111, 114, 101, 32, 119, 101, 32, 99, 97, 110, 32, 116, 101, 115, 116, 32, 111, 117, 114, 32, 108, 101, 120, 101, 114, 46, 10, 10, 32, 32, 32, 32, 32, 32, 32, 32, 32, 32, 32, 32, 32, 32, 32, 32, 32, 32, 32, 32, 70, 114, 111, 109, 44, 32, 66, 117, 99, 107, 101, 116, 100, 10, 32, 32, 32, 32, 32, 32, 32, 32, 32, 32, 32, 32, 32, 32, 32, 32, 34, 34, 34, 10, 32, 32, 32, 32, 32, 32, 32, 32, 32, 32, 32, 32, 32, 32, 32, 32, 114, 101, 97, 100, 84, 105, 109, 101, 58, 32, 50, 46, 55, 52, 50, 10, 32, 32, 32, 32, 32, 32, 32, 32, 32, 32, 32, 32, 41, 32, 64, 97, 115, 121, 110, 99, 40, 98, 97, 114, 58, 32, 36, 98, 97, 122, 41, 10, 32, 32, 32, 32, 32, 32, 32, 32, 125, 10, 32, 32, 32, 32] =
    .ret [⟨.name, [109, 117, 116, 97, 116, 105, 111, 110], 3, 9⟩, ⟨.punctuator, [123], 3, 18⟩, ⟨.name, [99, 114, 101, 97, 116, 101, 80, 111, 115, 116], 4, 13⟩, ⟨.punctuator, [40], 4, 23⟩, ⟨.name, [105, 100], 5, 17⟩, ⟨.punctuator, [58], 5, 19⟩, ⟨.intValue, [49, 48, 50, 52], 5, 21⟩, ⟨.name, [116, 105, 116, 108, 101], 6, 17⟩, ⟨.punctuator, [58], 6, 22⟩, ⟨.stringValue, [83, 116, 114, 105, 110, 103, 32, 86, 97, 108, 117, 101], 6, 24⟩, ⟨.name, [99, 111, 110, 116, 101, 110, 116], 7, 17⟩, ⟨.punctuator, [58], 7, 24⟩, ⟨.stringValue, [72, 101, 108, 108, 111, 44, 10, 10, 32, 32, 32, 32, 87, 101, 108, 99, 111, 109, 101, 32, 116, 111, 32, 71, 114, 97, 112, 104, 81, 76, 46, 10, 32, 32, 32, 32, 76, 101, 116, 39, 115, 32, 109, 97, 107, 101, 32, 116, 104, 105, 115, 32, 115, 116, 114, 105, 110, 103, 32, 97, 32, 108, 105, 116, 116, 108, 101, 32, 98, 105, 103, 103, 101, 114, 32, 116, 104, 101, 110, 46, 32, 66, 101, 99, 97, 117, 115, 101, 32, 116, 104, 101, 32, 108, 97, 114, 103, 101, 114, 32, 116, 104, 105, 115, 32, 115, 116, 114, 105, 110, 103, 10, 32, 32, 32, 32, 98, 101, 99, 111, 109, 101, 115, 44, 32, 116, 104, 101, 32, 109, 111, 114, 101, 32, 119, 101, 32, 99, 97, 110, 32, 116, 101, 115, 116, 32, 111, 117, 114, 32, 108, 101, 120, 101, 114, 46, 10, 10, 70, 114, 111, 109, 44, 32, 66, 117, 99, 107, 101, 116, 100], 7, 26⟩, ⟨.name, [114, 101, 97, 100, 84, 105, 109, 101], 16, 17⟩, ⟨.punctuator, [58], 16, 25⟩, ⟨.floatValue, [50, 46, 55, 52, 50], 16, 27⟩, ⟨.punctuator, [41], 17, 13⟩, ⟨.punctuator, [64], 17, 15⟩, ⟨.name, [97, 115, 121, 110, 99], 17, 16⟩, ⟨.punctuator, [40], 17, 21⟩, ⟨.name, [98, 97, 114], 17, 22⟩, ⟨.punctuator, [58], 17, 25⟩, ⟨.punctuator, [36], 17, 27⟩, ⟨.name, [98, 97, 122], 17, 28⟩, ⟨.punctuator, [41], 17, 31⟩, ⟨.punctuator, [125], 18, 9⟩, ⟨.eof, [], 19, 5⟩] := by
  decide +kernel

end GQL
