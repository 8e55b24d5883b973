/-
C87 A consistent renaming inside a query document does not change the verdict on it, nor the number of errors.
-/
import Verif.Proofs.Rename
import Verif.Props.C70

namespace GQL
open Spec

section
variable (pf : Bytes → Option Nat) (schema : Option Schema)

/-- **C87** Two texts read as documents that have the same definitions up to a renaming of operations, variables, fragments, aliases, fields, arguments and input fields, and
up to the constants in them: one is accepted if and only if the other is. -/
theorem C87_verdict (r : Renaming) (hr : r.Distinct) (a b : Bytes) (d e : Document) (ha : parse pf a = .ok d) (hb : parse pf b = .ok e)
    (h : SameDefinitions (r.document d) e) :
    parseDoc pf a schema = .ret ⟨some d, none, none⟩ ↔ parseDoc pf b schema = .ret ⟨some e, none, none⟩ := by
  rw [C39_accepts, C39_accepts]
  have p := queryErrors_same schema h
  have back : QueryOnly (r.document d) → QueryOnly d := by
    intro hq x hx
    have := hq (r.definition x) (List.mem_map_of_mem hx)
    obtain ⟨l, bd⟩ := x
    cases bd <;> simp [Renaming.definition, Renaming.body] at this ⊢
  constructor
  · rintro ⟨-, h0⟩
    refine ⟨hb, ?_⟩
    have hl := queryErrors_rename hr schema d (queryErrors_nil.1 h0).executable
    rw [h0] at hl
    rw [List.eq_nil_of_length_eq_zero hl] at p
    exact p.symm.eq_nil
  · rintro ⟨-, h0⟩
    refine ⟨ha, ?_⟩
    rw [h0] at p
    have h1 := p.eq_nil
    have hl := queryErrors_rename hr schema d (back (queryErrors_nil.1 h1).executable)
    rw [h1] at hl
    exact List.eq_nil_of_length_eq_zero hl.symm

/-- **C87, errors** A rejected document of operations and fragments is rejected with as many errors after the renaming as before. -/
theorem C87_errors (r : Renaming) (hr : r.Distinct) (a b : Bytes) (d e : Document) (ha : parse pf a = .ok d) (hb : parse pf b = .ok e)
    (h : SameDefinitions (r.document d) e) (hq : QueryOnly d) (es : List GErr) (he : parseDoc pf a schema = .ret ⟨none, some es, none⟩) :
    ∃ es', parseDoc pf b schema = .ret ⟨none, some es', none⟩ ∧ es'.length = es.length := by
  have stray : ∀ d : Document, QueryOnly d → NoStrayVariables d := by
    intro d hq x hx hn
    rcases hq x hx with ⟨o, ho⟩ | ⟨o, ho⟩ <;> simp [Definition.isExecutable, ho] at hn
  have hqe : QueryOnly e := by
    intro y hy
    obtain ⟨x', hx', hb'⟩ := same_mem h.symm hy
    obtain ⟨x, hx, rfl⟩ := List.mem_map.1 hx'
    rw [← hb']
    obtain ⟨l, bd⟩ := x
    rcases hq _ hx with ⟨o, ho⟩ | ⟨o, ho⟩
    · exact .inl ⟨r.operation o, by dsimp only at ho; simp [Renaming.definition, Renaming.body, ho]⟩
    · exact .inr ⟨r.fragment o, by dsimp only at ho; simp [Renaming.definition, Renaming.body, ho]⟩
  obtain ⟨es1, p1, q1⟩ := C39_errors_partial pf a schema ha (stray d hq)
  obtain ⟨es2, p2, q2⟩ := C39_errors_partial pf b schema hb (stray e hqe)
  have hl : es2.length = es1.length := by
    rw [p2.length_eq, ← (queryErrors_same schema h).length_eq, queryErrors_rename hr schema d hq, p1.length_eq]
  rw [he] at q1
  by_cases h1 : es1 = []
  · rw [if_pos h1] at q1; cases q1
  · rw [if_neg h1] at q1
    cases q1
    have h2 : es2 ≠ [] := fun h0 => h1 (List.eq_nil_of_length_eq_zero (by rw [← hl, h0]; rfl))
    rw [if_neg h2] at q2
    exact ⟨es2, q2, hl⟩

/-- Every name the author chose has an `X` put before it; constants, aliases and fields are all made equal. -/
def prefixing : Renaming where
  op n := if n = [] then [] else 88 :: n
  var n := 88 :: n
  frag n := 88 :: n
  alias _ := []
  field _ := b!"f"
  arg n := 88 :: n
  key n := 88 :: n
  enum n := n
  str _ := []
  int _ := 7
  float x := x
  bool _ := true

theorem prefixing_distinct : prefixing.Distinct where
  var a b h := by simpa [prefixing] using h
  frag a b h := by simpa [prefixing] using h
  arg a b h := by simpa [prefixing] using h
  key a b h := by simpa [prefixing] using h
  op a := by by_cases h : a = [] <;> simp [prefixing, h]

set_option maxRecDepth 4000 in
/-- A document and its renaming, in another order, to which the theorem applies; both are accepted. -/
example : ∃ d e, parse pf b!"query Q($v: ID) {c: g ...F} fragment F on ID {a(x: $v, y: {k: 1})}" = .ok d ∧
    parse pf b!"fragment XF on ID {f(Xx: $Xv, Xy: {Xk: 7})} query XQ($Xv: ID) {f ...XF}" = .ok e ∧
    SameDefinitions (prefixing.document d) e ∧ d.defs.length = 2 ∧
    parseDoc pf b!"query Q($v: ID) {c: g ...F} fragment F on ID {a(x: $v, y: {k: 1})}" none = .ret ⟨some d, none, none⟩ := by
  refine ⟨_, _, (parse_eq (ts := [⟨.name, b!"query", 1, 1⟩, ⟨.name, b!"Q", 1, 7⟩, ⟨.punctuator, b!"(", 1, 8⟩, ⟨.punctuator, b!"$", 1, 9⟩, ⟨.name, b!"v", 1, 10⟩, ⟨.punctuator, b!":", 1, 11⟩, ⟨.name, b!"ID", 1, 13⟩, ⟨.punctuator, b!")", 1, 15⟩, ⟨.punctuator, b!"{", 1, 17⟩, ⟨.name, b!"c", 1, 18⟩, ⟨.punctuator, b!":", 1, 19⟩, ⟨.name, b!"g", 1, 21⟩, ⟨.punctuator, b!"...", 1, 23⟩, ⟨.name, b!"F", 1, 26⟩, ⟨.punctuator, b!"}", 1, 27⟩, ⟨.name, b!"fragment", 1, 29⟩, ⟨.name, b!"F", 1, 38⟩, ⟨.name, b!"on", 1, 40⟩, ⟨.name, b!"ID", 1, 43⟩, ⟨.punctuator, b!"{", 1, 46⟩, ⟨.name, b!"a", 1, 47⟩, ⟨.punctuator, b!"(", 1, 48⟩, ⟨.name, b!"x", 1, 49⟩, ⟨.punctuator, b!":", 1, 50⟩, ⟨.punctuator, b!"$", 1, 52⟩, ⟨.name, b!"v", 1, 53⟩, ⟨.name, b!"y", 1, 56⟩, ⟨.punctuator, b!":", 1, 57⟩, ⟨.punctuator, b!"{", 1, 59⟩, ⟨.name, b!"k", 1, 60⟩, ⟨.punctuator, b!":", 1, 61⟩, ⟨.intValue, b!"1", 1, 63⟩, ⟨.punctuator, b!"}", 1, 64⟩, ⟨.punctuator, b!")", 1, 65⟩, ⟨.punctuator, b!"}", 1, 66⟩, ⟨.eof, [], 1, 67⟩]) (by decide) rfl), (parse_eq (ts := [⟨.name, b!"fragment", 1, 1⟩, ⟨.name, b!"XF", 1, 10⟩, ⟨.name, b!"on", 1, 13⟩, ⟨.name, b!"ID", 1, 16⟩, ⟨.punctuator, b!"{", 1, 19⟩, ⟨.name, b!"f", 1, 20⟩, ⟨.punctuator, b!"(", 1, 21⟩, ⟨.name, b!"Xx", 1, 22⟩, ⟨.punctuator, b!":", 1, 24⟩, ⟨.punctuator, b!"$", 1, 26⟩, ⟨.name, b!"Xv", 1, 27⟩, ⟨.name, b!"Xy", 1, 31⟩, ⟨.punctuator, b!":", 1, 33⟩, ⟨.punctuator, b!"{", 1, 35⟩, ⟨.name, b!"Xk", 1, 36⟩, ⟨.punctuator, b!":", 1, 38⟩, ⟨.intValue, b!"7", 1, 40⟩, ⟨.punctuator, b!"}", 1, 41⟩, ⟨.punctuator, b!")", 1, 42⟩, ⟨.punctuator, b!"}", 1, 43⟩, ⟨.name, b!"query", 1, 45⟩, ⟨.name, b!"XQ", 1, 51⟩, ⟨.punctuator, b!"(", 1, 53⟩, ⟨.punctuator, b!"$", 1, 54⟩, ⟨.name, b!"Xv", 1, 55⟩, ⟨.punctuator, b!":", 1, 57⟩, ⟨.name, b!"ID", 1, 59⟩, ⟨.punctuator, b!")", 1, 61⟩, ⟨.punctuator, b!"{", 1, 63⟩, ⟨.name, b!"f", 1, 64⟩, ⟨.punctuator, b!"...", 1, 66⟩, ⟨.name, b!"XF", 1, 69⟩, ⟨.punctuator, b!"}", 1, 71⟩, ⟨.eof, [], 1, 72⟩]) (by decide) rfl), ?_, rfl, ?_⟩
  · exact List.Perm.swap _ _ _
  · exact parseDoc_ok (parse_eq (ts := [⟨.name, b!"query", 1, 1⟩, ⟨.name, b!"Q", 1, 7⟩, ⟨.punctuator, b!"(", 1, 8⟩, ⟨.punctuator, b!"$", 1, 9⟩, ⟨.name, b!"v", 1, 10⟩, ⟨.punctuator, b!":", 1, 11⟩, ⟨.name, b!"ID", 1, 13⟩, ⟨.punctuator, b!")", 1, 15⟩, ⟨.punctuator, b!"{", 1, 17⟩, ⟨.name, b!"c", 1, 18⟩, ⟨.punctuator, b!":", 1, 19⟩, ⟨.name, b!"g", 1, 21⟩, ⟨.punctuator, b!"...", 1, 23⟩, ⟨.name, b!"F", 1, 26⟩, ⟨.punctuator, b!"}", 1, 27⟩, ⟨.name, b!"fragment", 1, 29⟩, ⟨.name, b!"F", 1, 38⟩, ⟨.name, b!"on", 1, 40⟩, ⟨.name, b!"ID", 1, 43⟩, ⟨.punctuator, b!"{", 1, 46⟩, ⟨.name, b!"a", 1, 47⟩, ⟨.punctuator, b!"(", 1, 48⟩, ⟨.name, b!"x", 1, 49⟩, ⟨.punctuator, b!":", 1, 50⟩, ⟨.punctuator, b!"$", 1, 52⟩, ⟨.name, b!"v", 1, 53⟩, ⟨.name, b!"y", 1, 56⟩, ⟨.punctuator, b!":", 1, 57⟩, ⟨.punctuator, b!"{", 1, 59⟩, ⟨.name, b!"k", 1, 60⟩, ⟨.punctuator, b!":", 1, 61⟩, ⟨.intValue, b!"1", 1, 63⟩, ⟨.punctuator, b!"}", 1, 64⟩, ⟨.punctuator, b!")", 1, 65⟩, ⟨.punctuator, b!"}", 1, 66⟩, ⟨.eof, [], 1, 67⟩]) (by decide) rfl) rfl

/-- A rejected document (the variable is not used) and its renaming, to which the second theorem applies. -/
example : ∃ d e es, parse pf b!"query Q($v: ID) {c: g}" = .ok d ∧ parse pf b!"query XQ($Xv: ID) {f}" = .ok e ∧
    SameDefinitions (prefixing.document d) e ∧ QueryOnly d ∧ parseDoc pf b!"query Q($v: ID) {c: g}" none = .ret ⟨none, some es, none⟩ ∧ es.length = 1 := by
  refine ⟨_, _, [Says.unusedVariable b!"v" b!"Q"], (parse_eq (ts := [⟨.name, b!"query", 1, 1⟩, ⟨.name, b!"Q", 1, 7⟩, ⟨.punctuator, b!"(", 1, 8⟩, ⟨.punctuator, b!"$", 1, 9⟩, ⟨.name, b!"v", 1, 10⟩, ⟨.punctuator, b!":", 1, 11⟩, ⟨.name, b!"ID", 1, 13⟩, ⟨.punctuator, b!")", 1, 15⟩, ⟨.punctuator, b!"{", 1, 17⟩, ⟨.name, b!"c", 1, 18⟩, ⟨.punctuator, b!":", 1, 19⟩, ⟨.name, b!"g", 1, 21⟩, ⟨.punctuator, b!"}", 1, 22⟩, ⟨.eof, [], 1, 23⟩]) (by decide) rfl), (parse_eq (ts := [⟨.name, b!"query", 1, 1⟩, ⟨.name, b!"XQ", 1, 7⟩, ⟨.punctuator, b!"(", 1, 9⟩, ⟨.punctuator, b!"$", 1, 10⟩, ⟨.name, b!"Xv", 1, 11⟩, ⟨.punctuator, b!":", 1, 13⟩, ⟨.name, b!"ID", 1, 15⟩, ⟨.punctuator, b!")", 1, 17⟩, ⟨.punctuator, b!"{", 1, 19⟩, ⟨.name, b!"f", 1, 20⟩, ⟨.punctuator, b!"}", 1, 21⟩, ⟨.eof, [], 1, 22⟩]) (by decide) rfl), ?_, ?_, ?_, ?_⟩
  · exact List.Perm.refl _
  · intro x hx
    cases hx with
    | head => exact .inl ⟨_, rfl⟩
    | tail _ h => cases h
  · unfold parseDoc
    rw [(parse_eq (ts := [⟨.name, b!"query", 1, 1⟩, ⟨.name, b!"Q", 1, 7⟩, ⟨.punctuator, b!"(", 1, 8⟩, ⟨.punctuator, b!"$", 1, 9⟩, ⟨.name, b!"v", 1, 10⟩, ⟨.punctuator, b!":", 1, 11⟩, ⟨.name, b!"ID", 1, 13⟩, ⟨.punctuator, b!")", 1, 15⟩, ⟨.punctuator, b!"{", 1, 17⟩, ⟨.name, b!"c", 1, 18⟩, ⟨.punctuator, b!":", 1, 19⟩, ⟨.name, b!"g", 1, 21⟩, ⟨.punctuator, b!"}", 1, 22⟩, ⟨.eof, [], 1, 23⟩]) (by decide) rfl)]
    rfl
  · rfl

/-- Distinctness is needed: giving two arguments of one field the same name turns an accepted document into a rejected one. -/
theorem C87_distinct_needed : ∃ (r : Renaming) (a b : Bytes) (d e : Document) (es : List GErr), parse pf a = .ok d ∧ parse pf b = .ok e ∧
    SameDefinitions (r.document d) e ∧ parseDoc pf a none = .ret ⟨some d, none, none⟩ ∧ parseDoc pf b none = .ret ⟨none, some es, none⟩ := by
  refine ⟨{ prefixing with arg := fun _ => b!"x", int := id, field := id }, b!"{a(x: 1, y: 1)}", b!"{a(x: 1, x: 1)}", _, _, [Says.repeatedArgument b!"x"], (parse_eq (ts := [⟨.punctuator, b!"{", 1, 1⟩, ⟨.name, b!"a", 1, 2⟩, ⟨.punctuator, b!"(", 1, 3⟩, ⟨.name, b!"x", 1, 4⟩, ⟨.punctuator, b!":", 1, 5⟩, ⟨.intValue, b!"1", 1, 7⟩, ⟨.name, b!"y", 1, 10⟩, ⟨.punctuator, b!":", 1, 11⟩, ⟨.intValue, b!"1", 1, 13⟩, ⟨.punctuator, b!")", 1, 14⟩, ⟨.punctuator, b!"}", 1, 15⟩, ⟨.eof, [], 1, 16⟩]) (by decide) rfl), (parse_eq (ts := [⟨.punctuator, b!"{", 1, 1⟩, ⟨.name, b!"a", 1, 2⟩, ⟨.punctuator, b!"(", 1, 3⟩, ⟨.name, b!"x", 1, 4⟩, ⟨.punctuator, b!":", 1, 5⟩, ⟨.intValue, b!"1", 1, 7⟩, ⟨.name, b!"x", 1, 10⟩, ⟨.punctuator, b!":", 1, 11⟩, ⟨.intValue, b!"1", 1, 13⟩, ⟨.punctuator, b!")", 1, 14⟩, ⟨.punctuator, b!"}", 1, 15⟩, ⟨.eof, [], 1, 16⟩]) (by decide) rfl), ?_, ?_, ?_⟩
  · exact List.Perm.refl _
  · exact parseDoc_ok (parse_eq (ts := [⟨.punctuator, b!"{", 1, 1⟩, ⟨.name, b!"a", 1, 2⟩, ⟨.punctuator, b!"(", 1, 3⟩, ⟨.name, b!"x", 1, 4⟩, ⟨.punctuator, b!":", 1, 5⟩, ⟨.intValue, b!"1", 1, 7⟩, ⟨.name, b!"y", 1, 10⟩, ⟨.punctuator, b!":", 1, 11⟩, ⟨.intValue, b!"1", 1, 13⟩, ⟨.punctuator, b!")", 1, 14⟩, ⟨.punctuator, b!"}", 1, 15⟩, ⟨.eof, [], 1, 16⟩]) (by decide) rfl) rfl
  · unfold parseDoc
    rw [(parse_eq (ts := [⟨.punctuator, b!"{", 1, 1⟩, ⟨.name, b!"a", 1, 2⟩, ⟨.punctuator, b!"(", 1, 3⟩, ⟨.name, b!"x", 1, 4⟩, ⟨.punctuator, b!":", 1, 5⟩, ⟨.intValue, b!"1", 1, 7⟩, ⟨.name, b!"x", 1, 10⟩, ⟨.punctuator, b!":", 1, 11⟩, ⟨.intValue, b!"1", 1, 13⟩, ⟨.punctuator, b!")", 1, 14⟩, ⟨.punctuator, b!"}", 1, 15⟩, ⟨.eof, [], 1, 16⟩]) (by decide) rfl)]
    rfl

end

end GQL
