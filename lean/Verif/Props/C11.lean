/-
C11 Ignored characters never change the meaning (tokens; the document is in Props/C11Doc).
-/
import Verif.Proofs.Respace

namespace GQL
open Spec

/-- `Spec.Inserted cs cs'`: `cs'` comes from `cs` by inserting ignorable texts (white space, commas, line
terminators, byte order marks, closed comments) right before or right after tokens, any number of times. -/
inductive Spec.Inserted (cs : List Char) : List Char → Prop
  | refl : Inserted cs cs
  | step {a b s : List Char} {items : List Item} {i : Item} : Inserted cs (a ++ b) →
      Lex GoBlock [] (a ++ b) items [] → i ∈ items → (a = i.before ∨ a = i.before ++ i.chars) →
      Sep s → '\x00' ∉ s → Inserted cs (a ++ s ++ b)

theorem inserted_lex {cs cs' : List Char} (h : Inserted cs cs') {items : List Item}
    (hl : Lex GoBlock [] cs items []) (h0 : '\x00' ∉ cs) :
    '\x00' ∉ cs' ∧ ∃ items', Lex GoBlock [] cs' items' [] ∧ items'.map (·.tok) = items.map (·.tok) := by
  induction h with
  | refl => exact ⟨h0, items, hl, rfl⟩
  | @step a b s its i _ h2 h3 h4 h5 h6 ih =>
    obtain ⟨h0', it1, hl1, e1⟩ := ih
    obtain ⟨it2, hl2, e2⟩ := lex_insert h2 h5 h3 rfl (by simpa using h4) []
    obtain ⟨rfl, -⟩ := C03_deterministic _ h0' _ _ _ _ hl1 (.inl rfl) h2 (.inl rfl)
    refine ⟨?_, it2, hl2, e2.trans e1⟩
    simp only [List.mem_append, not_or] at h0' ⊢
    exact ⟨⟨h0'.1, h6⟩, h0'.2⟩

/-- C11: a text that is scanned up to EOF has, after inserting ignorable texts between its tokens,
the same tokens (kinds and literals), up to EOF. -/
theorem C11_tokens (cs cs' : List Char) (h0 : '\x00' ∉ cs) (hi : Inserted cs cs')
    (toks : List Token) (last : Token) (ht : tokens (utf8 cs) = .ret (toks ++ [last]))
    (he : last.kind = .eof) :
    ∃ toks' last', tokens (utf8 cs') = .ret (toks' ++ [last']) ∧ last'.kind = .eof ∧
      toks'.map (fun t => (t.kind, t.lit)) = toks.map (fun t => (t.kind, t.lit)) := by
  obtain ⟨items, hl, hs, -⟩ := C03_spec_sound cs h0 toks last ht he
  obtain ⟨h0', items', hl', e⟩ := inserted_lex hi hl h0
  obtain ⟨i2, r2, toks', last', h1, h2, h3, h4, h5⟩ := C03_tokens cs' h0'
  obtain ⟨rfl, rfl⟩ := C03_deterministic cs' h0' _ _ _ _ hl' (.inl rfl) h1 h2
  refine ⟨toks', last', h3, h5, ?_⟩
  unfold SameTokens at hs h4
  rw [hs, h4]
  have := congrArg (List.map fun t : Tok => (goKind t.kind, utf8 t.value)) e
  simpa [Function.comp_def] using this

/-- Removing a separator that is there is the same statement read backwards; between two names
something must stay.  `{a b}` with `,` after `{` and a comment before `b`. -/
example : Inserted c!"{a b}" c!"{,a #é\nb}" := by
  have h1 : Lex GoBlock [] (c!"{" ++ c!"a b}") [⟨⟨.punctuator, ['{']⟩, [], ['{']⟩, ⟨⟨.name, ['a']⟩, c!"{", ['a']⟩,
      ⟨⟨.name, ['b']⟩, c!"{a ", ['b']⟩, ⟨⟨.punctuator, ['}']⟩, c!"{a b", ['}']⟩] [] :=
    .token (lx := ['{']) (.punct _ _ (by decide)) <|
    .token (lx := ['a']) (.name 'a' [] _ rfl (by simp) (by intro c t e; cases e; rfl)) <| .ignore rfl <|
    .token (lx := ['b']) (.name 'b' [] _ rfl (by simp) (by intro c t e; cases e; rfl)) <|
    .token (lx := ['}']) (.punct _ _ (by decide)) <| .done _ _
  have h2 : Lex GoBlock [] (c!"{,a " ++ c!"b}") [⟨⟨.punctuator, ['{']⟩, [], ['{']⟩, ⟨⟨.name, ['a']⟩, c!"{,", ['a']⟩,
      ⟨⟨.name, ['b']⟩, c!"{,a ", ['b']⟩, ⟨⟨.punctuator, ['}']⟩, c!"{,a b", ['}']⟩] [] :=
    .token (lx := ['{']) (.punct _ _ (by decide)) <| .ignore rfl <|
    .token (lx := ['a']) (.name 'a' [] _ rfl (by simp) (by intro c t e; cases e; rfl)) <| .ignore rfl <|
    .token (lx := ['b']) (.name 'b' [] _ rfl (by simp) (by intro c t e; cases e; rfl)) <|
    .token (lx := ['}']) (.punct _ _ (by decide)) <| .done _ _
  exact .step (a := c!"{,a ") (s := c!"#é\n") (b := c!"b}")
    (.step (a := c!"{") (s := c!",") (b := c!"a b}") .refl h1 (.head _) (.inr rfl) (.ign rfl .nil) (by decide))
    h2 (.tail _ (.tail _ (.head _))) (.inl rfl)
    (.comment (body := ['é']) (t := '\n') (by decide) rfl .nil) (by decide)

example : tokens (utf8 c!"{a b}") = .ret [⟨.punctuator, b!"{", 1, 1⟩, ⟨.name, b!"a", 1, 2⟩,
    ⟨.name, b!"b", 1, 4⟩, ⟨.punctuator, b!"}", 1, 5⟩, ⟨.eof, [], 1, 6⟩] := by decide

end GQL
