/-
C12 Parse never panics (refuted; exact description of the panics).
C13 Parse always terminates.
C20 A failed Parse returns no partial document, and the error names a real token.
-/
import Verif.Proofs.ParseTop

namespace GQL
open Spec

variable (pf : Bytes → Option Nat)

/-- C12 is false of the code: `fragment` not followed by a name crashes `Parse`. -/
theorem C12_refuted : parse pf b!"fragment {a}" = .panic :=
  (parse_eq (ts := [⟨.name, b!"fragment", 1, 1⟩, ⟨.punctuator, b!"{", 1, 10⟩, ⟨.name, b!"a", 1, 11⟩, ⟨.punctuator, b!"}", 1, 12⟩, ⟨.eof, [], 1, 13⟩]) (by decide) rfl)

/-- C12, what is true: `Parse` panics exactly if the tokens begin with definitions (in the grammar the
parser accepts) followed by the name `fragment` and something that is not a name.
Missing for the full property: the `fragment` case. -/
theorem C12_panics_iff_partial (input : Bytes) : parse pf input = .panic ↔
    ∃ ts defs r r', tokens input = .ret ts ∧ Many (LocDefn pf true) ts defs r ∧
      Nm b!"fragment" r r' ∧ NotKind .name r' := by
  obtain ⟨ts, ht, e⟩ := parse_tokens (pf := pf) (input := input)
  have hT := term_of_tokens ht
  have hl : ts.length < ts.length + 1 := by omega
  rw [e]
  constructor
  · intro h
    have h1 := parseDefs_total (pf := pf) (ts.length + 1) hT hl
    unfold parseTokens at h
    rcases e2 : parseDefs pf (ts.length + 1) ts with ⟨_, _⟩ | ⟨_, _⟩ | _ | _ <;> rw [e2] at h h1
    · cases h
    · cases h
    · obtain ⟨ds, r, h2, r', h3, h4⟩ := h1
      exact ⟨ts, ds, r, r', ht, h2, h3, h4⟩
    · cases h
  · rintro ⟨ts', ds, r, r', ht', h2, h3, h4⟩
    rw [ht] at ht'; cases ht'
    unfold parseTokens
    rw [parseDefs_crash (pf := pf) _ hl ⟨ds, r, h2, r', h3, h4⟩]

/-- C12, a simple sufficient condition: no `fragment` is followed by anything but a name. -/
theorem C12_no_panic_partial (input : Bytes)
    (h : ∀ ts pre t u post, tokens input = .ret ts → ts = pre ++ t :: u :: post → t.kind = .name → t.lit = b!"fragment" →
      u.kind = .name) :
    (∃ d, parse pf input = .ok d) ∨ ∃ e, parse pf input = .err e := by
  obtain ⟨ts, ht, e⟩ := parse_tokens (pf := pf) (input := input)
  have hT := term_of_tokens ht
  have hl : ts.length < ts.length + 1 := by omega
  have h1 := parseDefs_total (pf := pf) (ts.length + 1) hT hl
  rw [e]; unfold parseTokens
  rcases e2 : parseDefs pf (ts.length + 1) ts with ⟨ds, _⟩ | ⟨er, _⟩ | _ | _ <;> rw [e2] at h1
  · exact .inl ⟨_, rfl⟩
  · exact .inr ⟨_, rfl⟩
  · exfalso
    obtain ⟨ds, r, h2, r', ⟨t, rfl, k1, k2⟩, h4⟩ := h1
    have hE : Eats ts (t :: r') := by
      clear h e e2
      generalize hr : t :: r' = rr at h2
      have : ∀ {ts ds rr}, Many (LocDefn pf true) ts ds rr → Eats ts rr := by
        intro ts ds rr hm
        induction hm with
        | nil => exact .refl _
        | cons h1 _ ih => exact (locDefn_eats h1).1.trans ih
      exact this h2
    have hT' := hT.of_eats hE
    obtain ⟨pre, hts, -⟩ := hE
    cases r' with
    | nil =>
      obtain ⟨x, hx, hk⟩ := hT'
      simp only [List.mem_singleton] at hx
      subst hx; rw [k1] at hk; rcases hk with hk | hk <;> cases hk
    | cons u post =>
      have := h ts pre t u post ht hts k1 k2
      exact h4 u.lit post ⟨u, rfl, this, rfl⟩
  · exact h1.elim

/-- An input to which `C12_no_panic_partial` applies. -/
example : ∃ d, parse pf b!"fragment F on T{a}" = .ok d := ⟨_, (parse_eq (ts := [⟨.name, b!"fragment", 1, 1⟩, ⟨.name, b!"F", 1, 10⟩, ⟨.name, b!"on", 1, 12⟩, ⟨.name, b!"T", 1, 15⟩, ⟨.punctuator, b!"{", 1, 16⟩, ⟨.name, b!"a", 1, 17⟩, ⟨.punctuator, b!"}", 1, 18⟩, ⟨.eof, [], 1, 19⟩]) (by decide) rfl)⟩
/-- A definition before the crash. -/
example : parse pf b!"{a} fragment 1" = .panic :=
  (parse_eq (ts := [⟨.punctuator, b!"{", 1, 1⟩, ⟨.name, b!"a", 1, 2⟩, ⟨.punctuator, b!"}", 1, 3⟩, ⟨.name, b!"fragment", 1, 5⟩, ⟨.intValue, b!"1", 1, 14⟩, ⟨.eof, [], 1, 15⟩]) (by decide) rfl)

/-- C13: `Parse` terminates, within a recursion depth of one more than the number of tokens (the fuel given
to every recursive function in `parseTokens`) and as many iterations of each loop as there are tokens. -/
theorem C13_terminates (input : Bytes) : parse pf input ≠ .oof := by
  obtain ⟨ts, ht, e⟩ := parse_tokens (pf := pf) (input := input)
  have h1 := parseDefs_total (pf := pf) (ts.length + 1) (term_of_tokens ht) (by omega)
  rw [e]; unfold parseTokens
  rcases e2 : parseDefs pf (ts.length + 1) ts with ⟨ds, _⟩ | ⟨er, _⟩ | _ | _ <;> rw [e2] at h1
  · intro h; cases h
  · intro h; cases h
  · intro h; cases h
  · exact h1.elim

/-- More fuel, or fuel for any depth above the number of tokens, gives the same result. -/
theorem C13_depth (ts : Toks) (defs : List Definition) (n : Nat) (hn : ts.length < n) (rest : Toks) :
    parseDefs pf n ts = .ok defs rest ↔ parseDefs pf (ts.length + 1) ts = .ok defs rest := by
  rw [parseDefs_doc n hn, parseDefs_doc _ (Nat.lt_succ_self _)]

/-- What `Parse` returns as document together with an error: `ast.Document{}` (parser.go:47, 71). -/
def ParseOut.document : ParseOut → Option Document
  | .ok d => some d
  | .err _ => some {}
  | _ => none

/-- C20 is false of the code in one case: where a value is expected and none is there, the error quotes no token
(parser.go:696). -/
theorem C20_refuted : parse pf b!"{a(b:)}" = .err .todo :=
  (parse_eq (ts := [⟨.punctuator, b!"{", 1, 1⟩, ⟨.name, b!"a", 1, 2⟩, ⟨.punctuator, b!"(", 1, 3⟩, ⟨.name, b!"b", 1, 4⟩, ⟨.punctuator, b!":", 1, 5⟩, ⟨.punctuator, b!")", 1, 6⟩, ⟨.punctuator, b!"}", 1, 7⟩, ⟨.eof, [], 1, 8⟩]) (by decide) rfl)

/-- C20, what is true: a syntax error quotes a token of the input (its line, column, kind and literal); a number error quotes the
literal of an Int or Float token of the input.  The document is empty.  Missing for the full property: the error
"TODO: see `parseDefinition`" quotes nothing. -/
theorem C20_errors_partial (input : Bytes) (e : PErr) (h : parse pf input = .err e) :
    (parse pf input).document = some {} ∧
    ∃ ts, tokens input = .ret ts ∧ (e = .todo ∨ (∃ t w, e = .unexpected t w) ∨ (∃ l, e = .atoi l) ∨ ∃ l, e = .parseFloat l) ∧
      (∀ t w, e = .unexpected t w → t ∈ ts) ∧
      (∀ l, e = .atoi l → ∃ t ∈ ts, t.kind = .intValue ∧ t.lit = l) ∧
      (∀ l, e = .parseFloat l → ∃ t ∈ ts, t.kind = .floatValue ∧ t.lit = l) := by
  refine ⟨by rw [h]; rfl, ?_⟩
  obtain ⟨ts, ht, e0⟩ := parse_tokens (pf := pf) (input := input)
  refine ⟨ts, ht, ?_⟩
  have h1 := parseDefs_total (pf := pf) (ts.length + 1) (term_of_tokens ht) (by omega)
  rw [e0] at h; unfold parseTokens at h
  rcases e2 : parseDefs pf (ts.length + 1) ts with ⟨ds, _⟩ | ⟨er, _⟩ | _ | _ <;> rw [e2] at h1 h
  · cases h
  · cases h
    refine ⟨?_, ?_, ?_, ?_⟩
    · cases e with
      | unexpected t w => exact .inr (.inl ⟨t, w, rfl⟩)
      | atoi l => exact .inr (.inr (.inl ⟨l, rfl⟩))
      | parseFloat l => exact .inr (.inr (.inr ⟨l, rfl⟩))
      | todo => exact .inl rfl
    · rintro t w rfl; exact h1
    · rintro l rfl; exact h1
    · rintro l rfl; exact h1
  · cases h
  · cases h

/-- The error quotes `1` on line 2. -/
example : parse pf b!"{a(\n1" = .err (.unexpected ⟨.intValue, b!"1", 2, 1⟩ [b!"Name ''"]) :=
  (parse_eq (ts := [⟨.punctuator, b!"{", 1, 1⟩, ⟨.name, b!"a", 1, 2⟩, ⟨.punctuator, b!"(", 1, 3⟩, ⟨.intValue, b!"1", 2, 1⟩, ⟨.eof, [], 2, 2⟩]) (by decide) rfl)
/-- An integer that does not fit. -/
example : parse pf b!"{a(b:9223372036854775808)}" = .err (.atoi b!"9223372036854775808") :=
  (parse_eq (ts := [⟨.punctuator, b!"{", 1, 1⟩, ⟨.name, b!"a", 1, 2⟩, ⟨.punctuator, b!"(", 1, 3⟩, ⟨.name, b!"b", 1, 4⟩, ⟨.punctuator, b!":", 1, 5⟩, ⟨.intValue, b!"9223372036854775808", 1, 6⟩, ⟨.punctuator, b!")", 1, 25⟩, ⟨.punctuator, b!"}", 1, 26⟩, ⟨.eof, [], 1, 27⟩]) (by decide) rfl)

end GQL
