/-
C76 What a syntax error says, and about what.

`Spec/SyntaxError.lean`: the texts of the errors (`Message`), the lists of what they ask for (`requests`), the token an error is about (`About`),
and the tokens it asks for (`Asked`: the reading of what stands after "Wanted:").
-/
import Verif.Proofs.ParseLocalAll
import Verif.Proofs.ParseWants
import Verif.Model.ParseError
import Verif.Props.C60

namespace GQL
open Spec Spec.Syntax

/-! ### The text -/

theorem itoa_decimal (i : Int) : InDecimal i (itoa i) := by
  unfold itoa InDecimal
  have h1 := decimal_natural i.natAbs
  have h2 := decimal_value i.natAbs
  by_cases h : i < 0
  · rw [if_pos h]
    exact .inr ⟨_, rfl, h1, by rw [h2]; omega, by rw [h2]; omega⟩
  · rw [if_neg h]
    exact .inl ⟨h1, by rw [h2]; omega⟩

theorem wantsText_alternatives : ∀ w, wantsText w = alternatives w
  | [] => rfl
  | [w] => rfl
  | w :: x :: ws => by rw [wantsText, alternatives, wantsText_alternatives] <;> simp

/-- Every error has the text that the specification writes out. -/
theorem C76_text (e : PErr) : Message e e.text := by
  cases e with
  | unexpected t w =>
    refine ⟨itoa t.line, itoa t.col, itoa_decimal _, itoa_decimal _, ?_⟩
    have hk : t.kind.str = kindName t.kind := by cases t.kind <;> rfl
    show unexpectedText t w = _
    unfold unexpectedText
    rw [wantsText_alternatives, hk]
    have : b!"parser error: unexpected token found at " ++ b!"line: " = b!"parser error: unexpected token found at line: " := by decide
    rw [this]
    cases w <;> simp
  | atoi l => show _ = _; unfold PErr.text; simp [List.append_assoc]
  | parseFloat l => show _ = _; unfold PErr.text; simp [List.append_assoc]
  | todo => rfl

/-- What an error of `Parse` asks for is one of the listed requests. -/
theorem C76_requests (pf : Bytes → Option Nat) (input : Bytes) (found : Token) (wants : List Bytes)
    (h : parse pf input = .err (.unexpected found wants)) : wants ∈ requests := by
  obtain ⟨ts, r, -, hp⟩ := parse_err h
  exact wnt_parseDefs pf _ ts _ r hp

/-! ### The place -/

/-- Every text whose tokens begin with `before` and then `t` gets the error, which is about `t`. -/
def FailsAt (pf : Bytes → Option Nat) (e : PErr) (before : List Token) (t : Token) : Prop :=
  About e t ∧ ∀ input rest, tokens input = .ret (before ++ t :: rest) → parse pf input = .err e

theorem about_cur {t : Token} {e : PErr} (h : AtCur t e) : About e t := by
  cases e with
  | unexpected t0 w => exact h.1
  | atoi l => cases h
  | parseFloat l => cases h
  | todo => exact h

theorem about_last {t : Token} {e : PErr} (h : AtLast t e) : About e t := by
  cases e with
  | unexpected t0 w => exact h.1
  | atoi l => exact h
  | parseFloat l => exact h
  | todo => cases h

theorem seen_about {c r s0 : Toks} {t : Token} {e : PErr} (h : Seen c r (s0 ++ [t]) e) : About e t := by
  rcases h with ⟨h1, -, h3⟩ | ⟨h1, c0, u, h2, h3⟩
  · obtain ⟨-, h4⟩ := List.append_inj' h1 rfl
    cases h4
    exact about_cur h3
  · rw [h2] at h1
    obtain ⟨-, h4⟩ := List.append_inj' h1 rfl
    cases h4
    exact about_last h3

theorem seen_tokens {c r s0 : Toks} {t : Token} {e : PErr} (h : Seen c r (s0 ++ [t]) e) : ∃ rest, c ++ r = s0 ++ t :: rest := by
  obtain ⟨z, hz⟩ := h.prefix
  exact ⟨z, by rw [← hz]; simp⟩

/-- The whole of what is known about an error. -/
theorem C76_asks_partial (pf : Bytes → Option Nat) (input : Bytes) (e : PErr) (h : parse pf input = .err e) :
    ∃ before t rest, tokens input = .ret (before ++ t :: rest) ∧ (∀ u ∈ before, u.kind ≠ .eof ∧ u.kind ≠ .illegal) ∧
      FailsAt pf e before t ∧
      (Asked e t → AfterString before t) ∧
      ∀ t' rest' input', tokens input' = .ret (before ++ t' :: rest') → Asked e t' → ¬ AfterString before t' →
        ∀ e', parse pf input' = .err e' → ∃ before' t1 rest1, tokens input' = .ret (before' ++ t1 :: rest1) ∧ FailsAt pf e' before' t1 ∧
          (before.length < before'.length ∨ (before' = before ∧ t1 = t' ∧ OutOfRange e')) := by
  obtain ⟨ts, r, ht, hp⟩ := parse_err h
  have he := term_of_tokens ht
  obtain ⟨c, s0, t, h1, h2, h3, h4, h5, h6⟩ := parseDefs_local pf _ he hp
  obtain ⟨rest, hr⟩ := seen_tokens h3
  have hfail : ∀ {e : PErr} {s0 : Toks} {t : Token}, About e t →
      (∀ rest', HasEnd (s0 ++ t :: rest') → ∃ r', parseDefs pf ((s0 ++ t :: rest').length + 1) (s0 ++ t :: rest') = .err e r') → FailsAt pf e s0 t := by
    intro e s0 t ha hl
    refine ⟨ha, fun input' rest' ht' => ?_⟩
    obtain ⟨r', h⟩ := hl rest' (term_of_tokens ht')
    exact parse_of_defs ht' h
  refine ⟨s0, t, rest, by rw [ht, h1, hr], ?_, hfail (seen_about h3) h5, ?_, ?_⟩
  · obtain ⟨z, rfl⟩ := h4
    exact fun u hu => h2 u (List.mem_append_left _ hu)
  · intro hA
    apply Classical.byContradiction
    intro hD
    have hts : ts = s0 ++ t :: rest := by rw [h1, hr]
    have hy : HasEnd (t :: rest) := by
      rw [hts] at he
      exact he.drop_eaten (fun u hu => h2 u (by obtain ⟨z, rfl⟩ := h4; exact List.mem_append_left _ hu))
    have hw := h6 t hA hD rest hy
    unfold Went at hw
    rw [← hts, hp] at hw
    rcases h3 with ⟨h7, h8, h9⟩ | ⟨h7, c0, u, h8, h9⟩
    · obtain ⟨e1, e2⟩ := List.append_inj' h7 rfl
      cases e2
      subst e1
      cases r with
      | nil => exact h8 rfl
      | cons u r =>
        have := List.append_cancel_left hr
        rw [this] at hw
        simp at hw
    · rw [h8] at h7
      obtain ⟨-, e2⟩ := List.append_inj' h7 rfl
      cases e2
      cases e with
      | unexpected t0 w =>
        obtain ⟨x, hx, hw⟩ := hA
        rw [h9.2.2.2] at hx
        rw [enumWant, List.mem_singleton] at hx
        subst hx
        exact not_wanted_enum hw
      | atoi l => exact hA
      | parseFloat l => exact hA
      | todo => exact h9
  · intro t' rest' input' ht' hA hD e' hp'
    obtain ⟨ts', r', ht2, hp2⟩ := parse_err hp'
    rw [ht'] at ht2
    cases ht2
    have he' := term_of_tokens ht'
    have hy : HasEnd (t' :: rest') := he'.drop_eaten (fun u hu => h2 u (by obtain ⟨z, rfl⟩ := h4; exact List.mem_append_left _ hu))
    have hw := h6 t' hA hD rest' hy
    unfold Went at hw
    rw [hp2] at hw
    simp only at hw
    obtain ⟨c', s1, t1, g1, g2, g3, g4, g5, g6⟩ := parseDefs_local pf _ he' hp2
    obtain ⟨rest1, hr1⟩ := seen_tokens g3
    have hlen : s0.length + 1 ≤ c'.length := by
      have := congrArg List.length g1
      simp only [List.length_append, List.length_cons] at this hw
      omega
    refine ⟨s1, t1, rest1, by rw [ht', g1, hr1], hfail (seen_about g3) g5, ?_⟩
    rcases g3 with ⟨h7, h8, h9⟩ | ⟨h7, c0, u, h8, h9⟩
    · obtain ⟨e1, -⟩ := List.append_inj' h7 rfl
      left; rw [e1]; omega
    · have hl : s1.length + 1 = c'.length := by rw [← h7]; simp
      by_cases hlt : s0.length < s1.length
      · exact .inl hlt
      · right
        have heq : s1 ++ t1 :: rest1 = s0 ++ t' :: rest' := by rw [g1, hr1]
        obtain ⟨e1, e2⟩ := List.append_inj heq (by omega)
        cases e2
        refine ⟨e1, rfl, ?_⟩
        rw [h8] at h7
        obtain ⟨-, e3⟩ := List.append_inj' h7 rfl
        cases e3
        exact late_of_last h9

/-- An error depends on nothing after the token it is about. -/
theorem C76_local (pf : Bytes → Option Nat) (input : Bytes) (e : PErr) (h : parse pf input = .err e) :
    ∃ before t rest, tokens input = .ret (before ++ t :: rest) ∧ (∀ u ∈ before, u.kind ≠ .eof ∧ u.kind ≠ .illegal) ∧ About e t ∧
      ∀ input' rest', tokens input' = .ret (before ++ t :: rest') → parse pf input' = .err e := by
  obtain ⟨before, t, rest, h1, h2, h3, -⟩ := C76_asks_partial pf input e h
  exact ⟨before, t, rest, h1, h2, h3.1, h3.2⟩

/-- A closing brace is missing; the text of the error. -/
example (pf : Bytes → Option Nat) : ∃ e, parse pf b!"{ a" = .err e ∧
    e.text = b!"parser error: unexpected token found at line: 1, column: 4. Found: EOF ''. Wanted: Punctuator '}'." :=
  ⟨_, (parse_eq (ts := [⟨.punctuator, b!"{", 1, 1⟩, ⟨.name, b!"a", 1, 3⟩, ⟨.eof, [], 1, 4⟩]) (by decide) rfl), by decide⟩

/-- With the closing brace the text is accepted. -/
example (pf : Bytes → Option Nat) : (∃ d, parse pf b!"{ a }" = .ok d) ∧ Asked (.unexpected ⟨.eof, [], 1, 4⟩ [b!"Punctuator '}'"]) ⟨.punctuator, b!"}", 1, 5⟩ :=
  ⟨⟨_, (parse_eq (ts := [⟨.punctuator, b!"{", 1, 1⟩, ⟨.name, b!"a", 1, 3⟩, ⟨.punctuator, b!"}", 1, 5⟩, ⟨.eof, [], 1, 6⟩]) (by decide) rfl)⟩, _, List.mem_singleton.2 rfl, .inr ⟨b!"}", rfl, rfl, rfl⟩⟩

/-! ### What the errors do not say -/

/-- After a description, the error at an operation asks for what has been found. -/
theorem C76_asks_false (pf : Bytes → Option Nat) : ∃ input e before t rest, parse pf input = .err e ∧ tokens input = .ret (before ++ t :: rest) ∧
    About e t ∧ Asked e t ∧ e.text = b!"parser error: unexpected token found at line: 1, column: 5. Found: Name 'query'. Wanted: Name 'query|mutation|fragment' or Punctuator '{'." := by
  refine ⟨b!"\"d\" query { a }", _, [⟨.stringValue, b!"d", 1, 1⟩], ⟨.name, b!"query", 1, 5⟩, _, (parse_eq (ts := [⟨.stringValue, b!"d", 1, 1⟩, ⟨.name, b!"query", 1, 5⟩, ⟨.punctuator, b!"{", 1, 11⟩, ⟨.name, b!"a", 1, 13⟩, ⟨.punctuator, b!"}", 1, 15⟩, ⟨.eof, [], 1, 16⟩]) (by decide) rfl), rfl, rfl, ?_, by decide⟩
  exact ⟨_, List.mem_cons_self, .inl ⟨b!"query|mutation|fragment", by decide, rfl, ⟨by decide, by decide⟩, .inr (by decide)⟩⟩

/-- The error at a fragment without a name is about the token after `on`, and asks for a name other than `on`, which that token may be. -/
theorem C76_fragment_name_false (pf : Bytes → Option Nat) : ∃ input e, parse pf input = .err e ∧
    e.text = b!"parser error: unexpected token found at line: 1, column: 13. Found: Name 'T'. Wanted: Name '!on'." :=
  ⟨b!"fragment on T { a }", _, (parse_eq (ts := [⟨.name, b!"fragment", 1, 1⟩, ⟨.name, b!"on", 1, 10⟩, ⟨.name, b!"T", 1, 13⟩, ⟨.punctuator, b!"{", 1, 15⟩, ⟨.name, b!"a", 1, 17⟩, ⟨.punctuator, b!"}", 1, 19⟩, ⟨.eof, [], 1, 20⟩]) (by decide) rfl), by decide⟩

/-- A value that is missing is not said to be missing, nor where. -/
theorem C76_value_false (pf : Bytes → Option Nat) : ∃ input e, parse pf input = .err e ∧ e.text = b!"TODO: see `parseDefinition`" :=
  ⟨b!"{ a(b: ) }", _, (parse_eq (ts := [⟨.punctuator, b!"{", 1, 1⟩, ⟨.name, b!"a", 1, 3⟩, ⟨.punctuator, b!"(", 1, 4⟩, ⟨.name, b!"b", 1, 5⟩, ⟨.punctuator, b!":", 1, 6⟩, ⟨.punctuator, b!")", 1, 8⟩, ⟨.punctuator, b!"}", 1, 10⟩, ⟨.eof, [], 1, 11⟩]) (by decide) rfl), by decide⟩

end GQL
