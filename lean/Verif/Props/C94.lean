/-
C94 The words in strings and descriptions have no influence on validation.
-/
import Verif.Props.C81
import Verif.Props.C93

namespace GQL
open Spec

section
variable (g : Bytes → Bytes)

mutual
theorem bareVal_str : ∀ v : Value, bareVal (strVal g v) = bareVal v
  | .var _ | .int _ | .float _ | .str _ | .bool _ | .null | .enum _ => by simp only [strVal, bareVal]
  | .list vs => by rw [strVal, bareVal, bareVal, bareVals_str vs]
  | .obj fs => by rw [strVal, bareVal, bareVal, bareFlds_str fs]
theorem bareVals_str : ∀ vs : List Value, bareVals (strVals g vs) = bareVals vs
  | [] => by simp only [strVals]
  | v :: vs => by rw [strVals, bareVals, bareVals, bareVal_str v, bareVals_str vs]
theorem bareFlds_str : ∀ fs : List (Bytes × Value), bareFlds (strFlds g fs) = bareFlds fs
  | [] => by simp only [strFlds]
  | (n, v) :: fs => by rw [strFlds, bareFlds, bareFlds, bareVal_str v, bareFlds_str fs]
end

theorem map_bare_str {α : Type} {f s : α → α} (h : ∀ x, f (s x) = f x) (l : List α) : (l.map s).map f = l.map f := by
  rw [List.map_map]
  exact List.map_congr_left fun x _ => h x

theorem optMap_bare_str {α : Type} {f s : α → α} (h : ∀ x, f (s x) = f x) (l : Option α) : (l.map s).map f = l.map f := by
  cases l with
  | none => rfl
  | some x => simp [h x]

theorem bareArg_str (a : Argument) : bareArg (strArg g a) = bareArg a := by
  simp only [bareArg, strArg, bareVal_str]

theorem bareDir_str (d : Directive) : bareDir (strDir g d) = bareDir d := by
  simp only [bareDir, strDir, map_bare_str (bareArg_str g)]

mutual
theorem bareSel_str : ∀ s : Selection, bareSel (strSel g s) = bareSel s
  | .field a n args dirs sels => by
    simp only [strSel, bareSel, map_bare_str (bareArg_str g), map_bare_str (bareDir_str g), bareSels_str sels]
  | .spread n dirs => by simp only [strSel, bareSel, map_bare_str (bareDir_str g)]
  | .inline c dirs sels => by simp only [strSel, bareSel, map_bare_str (bareDir_str g), bareSels_str sels]
theorem bareSels_str : ∀ ss : List Selection, bareSels (strSels g ss) = bareSels ss
  | [] => by simp only [strSels]
  | s :: ss => by rw [strSels, bareSels, bareSels, bareSel_str s, bareSels_str ss]
end

theorem bareVar_str (v : VarDef) : bareVar (strVar g v) = bareVar v := by
  simp only [bareVar, strVar, optMap_bare_str (bareVal_str g)]

theorem bareInput_str (i : InputVal) : bareInput (strInput g i) = bareInput i := by
  simp only [bareInput, strInput, optMap_bare_str (bareVal_str g), map_bare_str (bareDir_str g)]

theorem bareField_str (d : FieldDef) : bareField (strField g d) = bareField d := by
  simp only [bareField, strField, map_bare_str (bareInput_str g), map_bare_str (bareDir_str g)]

theorem bareEnum_str (v : EnumVal) : bareEnum (strEnum g v) = bareEnum v := by
  simp only [bareEnum, strEnum, map_bare_str (bareDir_str g)]

theorem bareType_str (t : TypeDef) : bareType (strType g t) = bareType t := by
  simp only [bareType, strType, map_bare_str (bareInput_str g), map_bare_str (bareDir_str g), map_bare_str (bareField_str g), map_bare_str (bareEnum_str g)]

theorem bareBody_str (b : Body) : bareBody (strBody g b) = bareBody b := by
  cases b <;> simp only [bareBody, strBody, bareOp, strOp, bareFrag, strFrag, bareSchemaDef, strSchema, bareType_str, bareDirective, strDirective,
    map_bare_str (bareInput_str g), map_bare_str (bareDir_str g), map_bare_str (bareVar_str g), bareSels_str]

theorem sameOutline_str {d d' : Document} (h : noLoc d' = noLoc (strDoc g d)) : SameOutline d d' := by
  have h := congrArg (fun x : Document => x.defs.map fun y => bareBody y.body) h
  simp only [noLoc, strDoc, List.map_map, Function.comp_def, strDef, bareBody_str] at h
  exact h.symm

end

/-- Two texts whose tokens are the same but for the contents of strings, and the replacement neither empties a string nor fills an empty one. -/
structure Spec.OtherWords (cs cs' : List Char) : Prop where
  noNul : '\x00' ∉ cs
  noNul' : '\x00' ∉ cs'
  tokens : ∃ (items items' : List Item) (f : List Char → List Char) (g : Bytes → Bytes), Lex GoBlock [] cs items [] ∧ Lex GoBlock [] cs' items' [] ∧
    KeepsEmpty f ∧ OnBytes f g ∧ items'.map (·.tok) = items.map fun i => newString f i.tok

section
variable {pf : Bytes → Option Nat} {cs cs' : List Char}

/-- Either both texts are accepted by the parser, as documents of the same outline, or neither is. -/
theorem otherWords_parse (pf : Bytes → Option Nat) (h : OtherWords cs cs') :
    (∃ d d', parse pf (utf8 cs) = .ok d ∧ parse pf (utf8 cs') = .ok d' ∧ SameOutline d d') ∨
    ((∀ d, parse pf (utf8 cs) ≠ .ok d) ∧ ∀ d, parse pf (utf8 cs') ≠ .ok d) := by
  obtain ⟨items, items', f, g, hl, hl', hf, hg, hi⟩ := h.tokens
  obtain ⟨h1, h2⟩ := C81_strings_partial pf cs cs' h.noNul h.noNul' items items' hl hl' f hf hi g hg
  by_cases he : ∃ d, parse pf (utf8 cs) = .ok d
  · obtain ⟨d, hd⟩ := he
    obtain ⟨d', hd', e⟩ := h1 d hd
    exact .inl ⟨d, d', hd, hd', sameOutline_str g e⟩
  · refine .inr ⟨fun d hd => he ⟨d, hd⟩, fun d' hd' => ?_⟩
    obtain ⟨d, hd, -⟩ := h2 d' hd'
    exact he ⟨d, hd⟩

/-- **C94, queries**: with other words in its strings, a query is accepted if it was, and if it was rejected by the rules it is rejected with the same
errors in the same order. -/
theorem C94_query (schema : Option Schema) (h : OtherWords cs cs') :
    ((∃ d, parseDoc pf (utf8 cs) schema = .ret ⟨some d, none, none⟩) ↔ ∃ d, parseDoc pf (utf8 cs') schema = .ret ⟨some d, none, none⟩) ∧
    ∀ errs, parseDoc pf (utf8 cs) schema = .ret ⟨none, some errs, none⟩ ↔ parseDoc pf (utf8 cs') schema = .ret ⟨none, some errs, none⟩ := by
  rcases otherWords_parse pf h with ⟨d, d', h1, h2, h3⟩ | ⟨h1, h2⟩
  · rcases C93_query h1 h2 h3 (schema := schema) rfl with ⟨a, b⟩ | ⟨errs, he, a, b⟩
    · refine ⟨⟨fun _ => ⟨_, b⟩, fun _ => ⟨_, a⟩⟩, fun errs => ?_⟩
      rw [a, b]
      simp
    · refine ⟨?_, fun errs => ?_⟩ <;> rw [a, b]
  · have no : ∀ {i : Bytes} {x y}, (∀ d, parse pf i ≠ .ok d) → parseDoc pf i schema ≠ .ret ⟨x, y, none⟩ := by
      intro i x y hi e
      unfold parseDoc at e
      rcases hp : parse pf i with d | er | _ | _ <;> rw [hp] at e
      · exact hi d hp
      all_goals simp at e
    exact ⟨⟨fun ⟨d, e⟩ => absurd e (no h1), fun ⟨d, e⟩ => absurd e (no h2)⟩, fun errs => ⟨fun e => absurd e (no h1), fun e => absurd e (no h2)⟩⟩

/-- **C94, schemas**: with other words in its strings and descriptions, `ParseSDLDoc` comes to the same result but for these words (up to the order of
errors and map entries) if the text parses; and if it does not, neither text does. -/
theorem C94_sdl (schema : Option Schema) (ord ord' : Orders) (h : OtherWords cs cs') :
    (((∃ r, SDLDocReturns pf ord (utf8 cs) schema r) ↔ ∃ r, SDLDocReturns pf ord' (utf8 cs') schema r) ∧
      ∀ r r', SDLDocReturns pf ord (utf8 cs) schema r → SDLDocReturns pf ord' (utf8 cs') schema r' → Spec.SameOutlineResult r r') ∨
    ((∀ d, parse pf (utf8 cs) ≠ .ok d) ∧ ∀ d, parse pf (utf8 cs') ≠ .ok d) := by
  rcases otherWords_parse pf h with ⟨d, d', h1, h2, h3⟩ | h
  · exact .inl ⟨(C93_sdl (r := ⟨none, none, none, none⟩) (r' := ⟨none, none, none, none⟩) h1 h2 h3 rfl).1, fun r r' => (C93_sdl h1 h2 h3 rfl).2⟩
  · exact .inr h

end

/-- The condition is met by two queries, which are rejected for an unknown directive. -/
theorem otherWords_query : OtherWords "{a(b:\"h\")@c}".toList "{a(b:\"xx\")@c}".toList where
  noNul := by decide
  noNul' := by decide
  tokens := by
    refine ⟨[⟨⟨.punctuator, ['{']⟩, [], ['{']⟩, ⟨⟨.name, ['a']⟩, ['{'], ['a']⟩, ⟨⟨.punctuator, ['(']⟩, ['{', 'a'], ['(']⟩, ⟨⟨.name, ['b']⟩, ['{', 'a', '('], ['b']⟩, ⟨⟨.punctuator, [':']⟩, ['{', 'a', '(', 'b'], [':']⟩, ⟨⟨.string, ['h']⟩, ['{', 'a', '(', 'b', ':'], ['"', 'h', '"']⟩, ⟨⟨.punctuator, [')']⟩, ['{', 'a', '(', 'b', ':', '"', 'h', '"'], [')']⟩, ⟨⟨.punctuator, ['@']⟩, ['{', 'a', '(', 'b', ':', '"', 'h', '"', ')'], ['@']⟩, ⟨⟨.name, ['c']⟩, ['{', 'a', '(', 'b', ':', '"', 'h', '"', ')', '@'], ['c']⟩, ⟨⟨.punctuator, ['}']⟩, ['{', 'a', '(', 'b', ':', '"', 'h', '"', ')', '@', 'c'], ['}']⟩],
      [⟨⟨.punctuator, ['{']⟩, [], ['{']⟩, ⟨⟨.name, ['a']⟩, ['{'], ['a']⟩, ⟨⟨.punctuator, ['(']⟩, ['{', 'a'], ['(']⟩, ⟨⟨.name, ['b']⟩, ['{', 'a', '('], ['b']⟩, ⟨⟨.punctuator, [':']⟩, ['{', 'a', '(', 'b'], [':']⟩, ⟨⟨.string, ['x', 'x']⟩, ['{', 'a', '(', 'b', ':'], ['"', 'x', 'x', '"']⟩, ⟨⟨.punctuator, [')']⟩, ['{', 'a', '(', 'b', ':', '"', 'x', 'x', '"'], [')']⟩, ⟨⟨.punctuator, ['@']⟩, ['{', 'a', '(', 'b', ':', '"', 'x', 'x', '"', ')'], ['@']⟩, ⟨⟨.name, ['c']⟩, ['{', 'a', '(', 'b', ':', '"', 'x', 'x', '"', ')', '@'], ['c']⟩, ⟨⟨.punctuator, ['}']⟩, ['{', 'a', '(', 'b', ':', '"', 'x', 'x', '"', ')', '@', 'c'], ['}']⟩], fun s => if s = [] then [] else ['x', 'x'], fun b => if b = [] then [] else utf8 ['x', 'x'],
      ?_, ?_, ?_, ?_, by decide⟩
    · exact .token (lx := ['{']) (.punct '{' _ (by decide)) <| .token (lx := ['a']) (.name 'a' [] _ rfl (by decide) (fun c t e => by cases e; rfl)) <| .token (lx := ['(']) (.punct '(' _ (by decide)) <| .token (lx := ['b']) (.name 'b' [] _ rfl (by decide) (fun c t e => by cases e; rfl)) <| .token (lx := [':']) (.punct ':' _ (by decide)) <| .token (lx := ['"', 'h', '"']) (.string (v := ['h']) (.char 'h' (by decide) (by decide) (by decide) (.close _)) (fun h => nomatch h)) <| .token (lx := [')']) (.punct ')' _ (by decide)) <| .token (lx := ['@']) (.punct '@' _ (by decide)) <| .token (lx := ['c']) (.name 'c' [] _ rfl (by decide) (fun c t e => by cases e; rfl)) <| .token (lx := ['}']) (.punct '}' _ (by decide)) <| .done _ _
    · exact .token (lx := ['{']) (.punct '{' _ (by decide)) <| .token (lx := ['a']) (.name 'a' [] _ rfl (by decide) (fun c t e => by cases e; rfl)) <| .token (lx := ['(']) (.punct '(' _ (by decide)) <| .token (lx := ['b']) (.name 'b' [] _ rfl (by decide) (fun c t e => by cases e; rfl)) <| .token (lx := [':']) (.punct ':' _ (by decide)) <| .token (lx := ['"', 'x', 'x', '"']) (.string (v := ['x', 'x']) (.char 'x' (by decide) (by decide) (by decide) (.char 'x' (by decide) (by decide) (by decide) (.close _))) (fun h => nomatch h)) <| .token (lx := [')']) (.punct ')' _ (by decide)) <| .token (lx := ['@']) (.punct '@' _ (by decide)) <| .token (lx := ['c']) (.name 'c' [] _ rfl (by decide) (fun c t e => by cases e; rfl)) <| .token (lx := ['}']) (.punct '}' _ (by decide)) <| .done _ _
    · intro s; dsimp only; split <;> simp [*]
    · intro s
      dsimp only
      by_cases h : s = []
      · rw [if_pos h, if_pos (utf8_eq_nil.2 h)]; rfl
      · rw [if_neg h, if_neg (fun e => h (utf8_eq_nil.1 e))]

example (pf : Bytes → Option Nat) : ∃ e, parseDoc pf (utf8 "{a(b:\"h\")@c}".toList) none = .ret ⟨none, some [e], none⟩ := by
  unfold parseDoc
  rw [show parse pf (utf8 "{a(b:\"h\")@c}".toList) = _ from (parse_eq (ts := [⟨.punctuator, b!"{", 1, 1⟩, ⟨.name, b!"a", 1, 2⟩, ⟨.punctuator, b!"(", 1, 3⟩, ⟨.name, b!"b", 1, 4⟩, ⟨.punctuator, b!":", 1, 5⟩, ⟨.stringValue, b!"h", 1, 6⟩, ⟨.punctuator, b!")", 1, 9⟩, ⟨.punctuator, b!"@", 1, 10⟩, ⟨.name, b!"c", 1, 11⟩, ⟨.punctuator, b!"}", 1, 12⟩, ⟨.eof, [], 1, 13⟩]) (by decide) rfl)]
  exact ⟨_, rfl⟩

/-- The condition is met by two schemas, which are accepted. -/
theorem otherWords_schema : OtherWords "\"h\" type Query{a:ID}".toList "\"xx\" type Query{a:ID}".toList where
  noNul := by decide
  noNul' := by decide
  tokens := by
    refine ⟨[⟨⟨.string, ['h']⟩, [], ['"', 'h', '"']⟩, ⟨⟨.name, ['t', 'y', 'p', 'e']⟩, ['"', 'h', '"', ' '], ['t', 'y', 'p', 'e']⟩, ⟨⟨.name, ['Q', 'u', 'e', 'r', 'y']⟩, ['"', 'h', '"', ' ', 't', 'y', 'p', 'e', ' '], ['Q', 'u', 'e', 'r', 'y']⟩, ⟨⟨.punctuator, ['{']⟩, ['"', 'h', '"', ' ', 't', 'y', 'p', 'e', ' ', 'Q', 'u', 'e', 'r', 'y'], ['{']⟩, ⟨⟨.name, ['a']⟩, ['"', 'h', '"', ' ', 't', 'y', 'p', 'e', ' ', 'Q', 'u', 'e', 'r', 'y', '{'], ['a']⟩, ⟨⟨.punctuator, [':']⟩, ['"', 'h', '"', ' ', 't', 'y', 'p', 'e', ' ', 'Q', 'u', 'e', 'r', 'y', '{', 'a'], [':']⟩, ⟨⟨.name, ['I', 'D']⟩, ['"', 'h', '"', ' ', 't', 'y', 'p', 'e', ' ', 'Q', 'u', 'e', 'r', 'y', '{', 'a', ':'], ['I', 'D']⟩, ⟨⟨.punctuator, ['}']⟩, ['"', 'h', '"', ' ', 't', 'y', 'p', 'e', ' ', 'Q', 'u', 'e', 'r', 'y', '{', 'a', ':', 'I', 'D'], ['}']⟩],
      [⟨⟨.string, ['x', 'x']⟩, [], ['"', 'x', 'x', '"']⟩, ⟨⟨.name, ['t', 'y', 'p', 'e']⟩, ['"', 'x', 'x', '"', ' '], ['t', 'y', 'p', 'e']⟩, ⟨⟨.name, ['Q', 'u', 'e', 'r', 'y']⟩, ['"', 'x', 'x', '"', ' ', 't', 'y', 'p', 'e', ' '], ['Q', 'u', 'e', 'r', 'y']⟩, ⟨⟨.punctuator, ['{']⟩, ['"', 'x', 'x', '"', ' ', 't', 'y', 'p', 'e', ' ', 'Q', 'u', 'e', 'r', 'y'], ['{']⟩, ⟨⟨.name, ['a']⟩, ['"', 'x', 'x', '"', ' ', 't', 'y', 'p', 'e', ' ', 'Q', 'u', 'e', 'r', 'y', '{'], ['a']⟩, ⟨⟨.punctuator, [':']⟩, ['"', 'x', 'x', '"', ' ', 't', 'y', 'p', 'e', ' ', 'Q', 'u', 'e', 'r', 'y', '{', 'a'], [':']⟩, ⟨⟨.name, ['I', 'D']⟩, ['"', 'x', 'x', '"', ' ', 't', 'y', 'p', 'e', ' ', 'Q', 'u', 'e', 'r', 'y', '{', 'a', ':'], ['I', 'D']⟩, ⟨⟨.punctuator, ['}']⟩, ['"', 'x', 'x', '"', ' ', 't', 'y', 'p', 'e', ' ', 'Q', 'u', 'e', 'r', 'y', '{', 'a', ':', 'I', 'D'], ['}']⟩], fun s => if s = [] then [] else ['x', 'x'], fun b => if b = [] then [] else utf8 ['x', 'x'],
      ?_, ?_, ?_, ?_, by decide⟩
    · exact .token (lx := ['"', 'h', '"']) (.string (v := ['h']) (.char 'h' (by decide) (by decide) (by decide) (.close _)) (fun h => nomatch h)) <| .ignore (c := ' ') rfl <| .token (lx := ['t', 'y', 'p', 'e']) (.name 't' ['y', 'p', 'e'] _ rfl (by decide) (fun c t e => by cases e; rfl)) <| .ignore (c := ' ') rfl <| .token (lx := ['Q', 'u', 'e', 'r', 'y']) (.name 'Q' ['u', 'e', 'r', 'y'] _ rfl (by decide) (fun c t e => by cases e; rfl)) <| .token (lx := ['{']) (.punct '{' _ (by decide)) <| .token (lx := ['a']) (.name 'a' [] _ rfl (by decide) (fun c t e => by cases e; rfl)) <| .token (lx := [':']) (.punct ':' _ (by decide)) <| .token (lx := ['I', 'D']) (.name 'I' ['D'] _ rfl (by decide) (fun c t e => by cases e; rfl)) <| .token (lx := ['}']) (.punct '}' _ (by decide)) <| .done _ _
    · exact .token (lx := ['"', 'x', 'x', '"']) (.string (v := ['x', 'x']) (.char 'x' (by decide) (by decide) (by decide) (.char 'x' (by decide) (by decide) (by decide) (.close _))) (fun h => nomatch h)) <| .ignore (c := ' ') rfl <| .token (lx := ['t', 'y', 'p', 'e']) (.name 't' ['y', 'p', 'e'] _ rfl (by decide) (fun c t e => by cases e; rfl)) <| .ignore (c := ' ') rfl <| .token (lx := ['Q', 'u', 'e', 'r', 'y']) (.name 'Q' ['u', 'e', 'r', 'y'] _ rfl (by decide) (fun c t e => by cases e; rfl)) <| .token (lx := ['{']) (.punct '{' _ (by decide)) <| .token (lx := ['a']) (.name 'a' [] _ rfl (by decide) (fun c t e => by cases e; rfl)) <| .token (lx := [':']) (.punct ':' _ (by decide)) <| .token (lx := ['I', 'D']) (.name 'I' ['D'] _ rfl (by decide) (fun c t e => by cases e; rfl)) <| .token (lx := ['}']) (.punct '}' _ (by decide)) <| .done _ _
    · intro s; dsimp only; split <;> simp [*]
    · intro s
      dsimp only
      by_cases h : s = []
      · rw [if_pos h, if_pos (utf8_eq_nil.2 h)]; rfl
      · rw [if_neg h, if_neg (fun e => h (utf8_eq_nil.1 e))]

example (pf : Bytes → Option Nat) : ∃ s, parseSDLDoc pf 5 plainOrders (utf8 "\"h\" type Query{a:ID}".toList) none = .ret ⟨some s, none, none, none⟩ := by
  unfold parseSDLDoc
  rw [show parse pf (utf8 "\"h\" type Query{a:ID}".toList) = _ from (parse_eq (ts := [⟨.stringValue, b!"h", 1, 1⟩, ⟨.name, b!"type", 1, 5⟩, ⟨.name, b!"Query", 1, 10⟩, ⟨.punctuator, b!"{", 1, 15⟩, ⟨.name, b!"a", 1, 16⟩, ⟨.punctuator, b!":", 1, 17⟩, ⟨.name, b!"ID", 1, 18⟩, ⟨.punctuator, b!"}", 1, 20⟩, ⟨.eof, [], 1, 21⟩]) (by decide) rfl)]
  exact ⟨_, rfl⟩

end GQL
