/-
C03 Tokens are the ones the GraphQL lexical grammar prescribes.

`Spec.Lex` is the lexical grammar (Spec/Lex.lean).  `Lex SpecBlock` has block strings as in the
GraphQL specification, `Lex GoBlock` as the code reads them (Spec/GoBlock.lean); they differ
only on block strings with CR, control characters or `\\`, see C07.
-/
import Verif.Proofs.Lines

namespace GQL
open Spec

/-- Kinds and literals of Go tokens and of tokens of the specification. -/
def SameTokens (toks : List Token) (items : List Item) : Prop :=
  toks.map (fun t => (t.kind, t.lit)) = items.map (fun i => (goKind i.tok.kind, utf8 i.tok.value))

theorem noNul_of {cs : List Char} (h : '\x00' ∉ cs) : NoNul cs := by
  intro c hc h0
  have := toNat_inj (c := c) (d := '\x00') h0
  subst this; exact h hc

theorem at_new (cs : List Char) : At (newLexer (utf8 cs)) cs := ⟨Nat.zero_le _, rfl⟩

/-- C03: scanning a text without NUL gives the tokens of the lexical grammar, then EOF if the
grammar covers the whole text, and Illegal if it gets stuck. -/
theorem C03_tokens (cs : List Char) (h : '\x00' ∉ cs) :
    ∃ items rest toks last, Lex GoBlock [] cs items rest ∧ (rest = [] ∨ Stuck GoBlock rest) ∧
      tokens (utf8 cs) = .ret (toks ++ [last]) ∧ SameTokens toks items ∧
      last.kind = (if rest = [] then .eof else .illegal) := by
  obtain ⟨items, rest, toks, last, h1, h2, h3, h4, h5, -⟩ :=
    tokensF_at (n := (utf8 cs).length + 2) (at_new cs) (noNul_of h)
      (by have := length_utf8_le cs; omega) []
  exact ⟨items, rest, toks, last, h1, h2, h3, h4, h5⟩

/-- The grammar is deterministic, so the tokens of `C03_tokens` are the only ones it prescribes. -/
theorem C03_deterministic (cs : List Char) (h : '\x00' ∉ cs) (i₁ i₂ : List Item) (r₁ r₂ : List Char)
    (h₁ : Lex GoBlock [] cs i₁ r₁) (f₁ : r₁ = [] ∨ Stuck GoBlock r₁)
    (h₂ : Lex GoBlock [] cs i₂ r₂) (f₂ : r₂ = [] ∨ Stuck GoBlock r₂) : i₁ = i₂ ∧ r₁ = r₂ :=
  Lex.unique (noNul_of h) h₁ f₁ h₂ f₂

/-- The tokens of every text of the language of the specification (block strings plain). -/
theorem C03_spec_complete (cs : List Char) (h : '\x00' ∉ cs) (items : List Item)
    (hp : PlainBlocks items) (hl : Lex SpecBlock [] cs items []) :
    ∃ toks last, tokens (utf8 cs) = .ret (toks ++ [last]) ∧ last.kind = .eof ∧ SameTokens toks items := by
  obtain ⟨i2, r2, toks, last, h1, h2, h3, h4, h5⟩ := C03_tokens cs h
  obtain ⟨rfl, rfl⟩ := C03_deterministic cs h _ _ _ _ ((lex_spec_iff hp).1 hl) (.inl rfl) h1 h2
  exact ⟨toks, last, h3, h5, h4⟩

/-- A text scanned up to EOF is of the language of the specification (block strings plain). -/
theorem C03_spec_sound (cs : List Char) (h : '\x00' ∉ cs) (toks : List Token) (last : Token)
    (ht : tokens (utf8 cs) = .ret (toks ++ [last])) (he : last.kind = .eof) :
    ∃ items, Lex GoBlock [] cs items [] ∧ SameTokens toks items ∧
      (PlainBlocks items → Lex SpecBlock [] cs items []) := by
  obtain ⟨i2, r2, toks', last', h1, h2, h3, h4, h5⟩ := C03_tokens cs h
  rw [ht] at h3
  have e := (Out.ret.inj h3)
  obtain ⟨rfl, e2⟩ := List.append_inj' e rfl
  cases e2
  rw [he] at h5
  by_cases hr : r2 = []
  · subst hr
    exact ⟨i2, h1, h4, fun hp => (lex_spec_iff hp).2 h1⟩
  · rw [if_neg hr] at h5; cases h5

/-- `query Q{a(b:-1.5e3)}#c` is a text of the language of the specification. -/
example : ∃ items, PlainBlocks items ∧ items.length = 8 ∧
    Lex SpecBlock [] ("{a(b:-1.5e3)}#c".toList) items [] := by
  refine ⟨[⟨⟨.punctuator, ['{']⟩, [], ['{']⟩, ⟨⟨.name, ['a']⟩, ['{'], ['a']⟩,
    ⟨⟨.punctuator, ['(']⟩, "{a".toList, ['(']⟩, ⟨⟨.name, ['b']⟩, "{a(".toList, ['b']⟩,
    ⟨⟨.punctuator, [':']⟩, "{a(b".toList, [':']⟩,
    ⟨⟨.float, "-1.5e3".toList⟩, "{a(b:".toList, "-1.5e3".toList⟩,
    ⟨⟨.punctuator, [')']⟩, "{a(b:-1.5e3".toList, [')']⟩,
    ⟨⟨.punctuator, ['}']⟩, "{a(b:-1.5e3)".toList, ['}']⟩], ?_, rfl, ?_⟩
  · intro i hi hq
    exfalso
    simp only [List.mem_cons, List.not_mem_nil, or_false] at hi
    rcases hi with rfl | rfl | rfl | rfl | rfl | rfl | rfl | rfl <;> revert hq <;> decide
  · refine .token (lx := ['{']) (.punct _ _ (by decide)) <|
      .token (lx := ['a']) (.name 'a' [] _ rfl (by simp) (by intro c t e; cases e; rfl)) <|
      .token (lx := ['(']) (.punct _ _ (by decide)) <|
      .token (lx := ['b']) (.name 'b' [] _ rfl (by simp) (by intro c t e; cases e; rfl)) <|
      .token (lx := [':']) (.punct _ _ (by decide)) <|
      .token (lx := "-1.5e3".toList) (.fracExp ['-', '1'] ['.', '5'] ['e', '3'] _
        (.neg '1' [] rfl (by decide) (by simp)) ⟨['5'], by simp [IsDigits]⟩
        (.plain 'e' ['3'] (.inl rfl) (by simp [IsDigits])) (by intro c t e; cases e; rfl)) <|
      .token (lx := [')']) (.punct _ _ (by decide)) <|
      .token (lx := ['}']) (.punct _ _ (by decide)) <|
      .comment (body := ['c']) (by decide) (by intro c t e; cases e) (.done _ _)

end GQL
