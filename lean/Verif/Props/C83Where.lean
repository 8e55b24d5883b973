/-
C83, continued: which parts of the buffer may be reused, in terms of the source text.

`Spec.shared` (Spec/Shared) says which tokens of a text are not copied.
-/
import Verif.Proofs.AliasWhere
import Verif.Props.C83
import Verif.Props.C03

namespace GQL
open Spec

/-- **C83, exactly, for tokens**: the text of a token is a window inside of the characters of the token if `shared` says so, and
a copy otherwise; the text of the last token (EOF or Illegal) is never a window. -/
theorem C83_where (cs : List Char) (h : '\x00' ∉ cs) :
    ∃ items rest toks last, Lex GoBlock [] cs items rest ∧ (rest = [] ∨ Stuck GoBlock rest) ∧
      tokensA (utf8 cs) = .ret (toks ++ [last]) ∧ toks.length = items.length ∧ (∃ x, last.lit = .own x) ∧
      ∀ (k : Nat) (t : ATok) (i : Item), toks[k]? = some t → items[k]? = some i →
        t.kind = goKind i.tok.kind ∧ t.lit.value (utf8 cs) = utf8 i.tok.value ∧
        (shared i = true → ∃ off len, t.lit = .view off len ∧ (utf8 i.before).length ≤ off ∧ off + len ≤ (utf8 (i.before ++ i.chars)).length) ∧
        (shared i = false → t.lit = .own (utf8 i.tok.value)) := by
  obtain ⟨items, rest, toks, last, h1, h2, h3, h4, h5, h6, h7⟩ :=
    tokensFA_at (n := (utf8 cs).length + 2) (at_new cs) (noNul_of h)
      (by have := length_utf8_le cs; omega) [] rfl
  have hlen : toks.length = items.length := by
    have := congrArg List.length h4
    simpa using this
  refine ⟨items, rest, toks, last, h1, h2, h3, hlen, h6, ?_⟩
  intro k t i ht hi
  have hz : (t, i) ∈ toks.zip items := List.mem_of_getElem? (i := k) (by rw [List.getElem?_zip_eq_some]; exact ⟨ht, hi⟩)
  have hw := h5 _ hz
  have h8 := congrArg (fun l => l[k]?) h4
  simp only [List.getElem?_map, ht, hi, Option.map_some, Option.some.injEq, Prod.mk.injEq] at h8
  refine ⟨h8.1, h8.2, fun hs => ?_, fun hs => hw.2 hs⟩
  obtain ⟨off, len, k1, k2, k3⟩ := hw.1 hs
  refine ⟨off, len, k1, k2, ?_⟩
  rw [utf8_append, List.length_append]
  exact k3

/-- The two buffers have the same bytes under every token that is not copied. -/
def Spec.SameUnderShared (items : List Item) (a b : List Nat) : Prop :=
  ∀ i ∈ items, shared i = true → ∀ k, (utf8 i.before).length ≤ k → k < (utf8 (i.before ++ i.chars)).length → b[k]? = a[k]?

/-- **C83, what may be overwritten**: white space, commas, comments, `...`, strings with escapes, block strings that were
rewritten or have several lines, and everything after the text. -/
theorem C83_overwrite_partial (pf : Bytes → Option Nat) (cs : List Char) (h : '\x00' ∉ cs) (items : List Item) (rest : List Char)
    (hl : Lex GoBlock [] cs items rest) (hf : rest = [] ∨ Stuck GoBlock rest) (b : List Nat) (hb : SameUnderShared items (utf8 cs) b) :
    (parseA pf (utf8 cs)).readAs b = parse pf (utf8 cs) := by
  obtain ⟨items', rest', toks, last, h1, h2, h3, h4, ⟨x, h5⟩, h6⟩ := C83_where cs h
  obtain ⟨rfl, rfl⟩ := C03_deterministic cs h _ _ _ _ hl hf h1 h2
  refine C83_rest_partial pf (utf8 cs) b _ h3 ?_
  intro t ht off len hv k hk1 hk2
  rcases List.mem_append.1 ht with ht | ht
  · obtain ⟨n, hn⟩ := List.mem_iff_getElem?.1 ht
    have hlt : n < items.length := by
      rw [← h4]
      exact (List.getElem?_eq_some_iff.1 hn).1
    have hi : items[n]? = some items[n] := List.getElem?_eq_getElem hlt
    obtain ⟨-, -, k1, k2⟩ := h6 n t _ hn hi
    cases hs : shared items[n] with
    | false => rw [k2 hs] at hv; cases hv
    | true =>
      obtain ⟨off', len', j1, j2, j3⟩ := k1 hs
      rw [j1] at hv
      cases hv
      exact hb _ (List.getElem_mem hlt) hs k (by omega) (by omega)
  · rw [List.mem_singleton] at ht
    subst ht
    rw [h5] at hv; cases hv

/-- **C83, what may not be overwritten**: a token survives all writes to the buffer exactly if it is copied or has no text. -/
theorem C83_safe_iff (cs : List Char) (h : '\x00' ∉ cs) (items : List Item) (rest : List Char)
    (hl : Lex GoBlock [] cs items rest) (hf : rest = [] ∨ Stuck GoBlock rest) :
    ∃ toks last, tokensA (utf8 cs) = .ret (toks ++ [last]) ∧
      ∀ (k : Nat) (t : ATok) (i : Item), toks[k]? = some t → items[k]? = some i →
        ((∀ b : Bytes, b.length = (utf8 cs).length → (∀ x ∈ b, x < 256) → t.lit.value b = utf8 i.tok.value) ↔ shared i = false ∨ i.tok.value = []) := by
  obtain ⟨items', rest', toks, last, h1, h2, h3, h4, h5, h6⟩ := C83_where cs h
  obtain ⟨rfl, rfl⟩ := C03_deterministic cs h _ _ _ _ hl hf h1 h2
  refine ⟨toks, last, h3, ?_⟩
  intro k t i ht hi
  obtain ⟨-, k0, k1, k2⟩ := h6 k t i ht hi
  have := C83_exact (utf8 cs) t.lit
  rw [k0, utf8_nil_iff] at this
  rw [this]
  constructor
  · rintro (⟨x, hx⟩ | h)
    · left
      cases hs : shared i with
      | false => rfl
      | true =>
        obtain ⟨_, _, j1, -⟩ := k1 hs
        rw [j1] at hx; cases hx
    · exact .inr h
  · rintro (h | h)
    · exact .inl ⟨_, k2 h⟩
    · exact .inr h

/-- Which tokens are copied. -/
example : shared ⟨⟨.name, ['a']⟩, [], ['a']⟩ = true ∧
    shared ⟨⟨.punctuator, ['.', '.', '.']⟩, [], ['.', '.', '.']⟩ = false ∧
    shared ⟨⟨.string, ['a']⟩, [], ['"', 'a', '"']⟩ = true ∧
    shared ⟨⟨.string, ['\n']⟩, [], ['"', '\\', 'n', '"']⟩ = false ∧
    shared ⟨⟨.string, ['a']⟩, [], ['"', '"', '"', 'a', '\n', '"', '"', '"']⟩ = true ∧
    shared ⟨⟨.string, ['a', '\n', 'b']⟩, [], ['"', '"', '"', 'a', '\n', 'b', '"', '"', '"']⟩ = false ∧
    shared ⟨⟨.string, ['a']⟩, [], ['"', '"', '"', 'a', '\r', '\n', '"', '"', '"']⟩ = false := by decide

/-- The hypotheses can be met: the spaces of `{ a }` become commas. -/
example (pf : Bytes → Option Nat) : (parseA pf (utf8 ['{', ' ', 'a', ' ', '}'])).readAs b!"{,a,}" = parse pf (utf8 ['{', ' ', 'a', ' ', '}']) := by
  refine C83_overwrite_partial pf _ (by decide)
    [⟨⟨.punctuator, ['{']⟩, [], ['{']⟩, ⟨⟨.name, ['a']⟩, ['{', ' '], ['a']⟩, ⟨⟨.punctuator, ['}']⟩, ['{', ' ', 'a', ' '], ['}']⟩] [] ?_ (.inl rfl) _ ?_
  · refine Lex.token (lx := ['{']) (.punct '{' _ (by decide)) (Lex.ignore rfl (Lex.token (lx := ['a']) (.name 'a' [] _ rfl (by simp) ?_)
      (Lex.ignore rfl (Lex.token (lx := ['}']) (.punct '}' _ (by decide)) (.done _ _)))))
    intro c t e; cases e; rfl
  · intro i hi _ k h1 h2
    simp only [List.mem_cons, List.not_mem_nil, or_false] at hi
    rcases hi with rfl | rfl | rfl
    · have e1 : (utf8 []).length = 0 := by decide
      have e2 : (utf8 ([] ++ ['{'])).length = 1 := by decide
      have : k = 0 := by dsimp only at h1 h2; omega
      subst this; rfl
    · have e1 : (utf8 ['{', ' ']).length = 2 := by decide
      have e2 : (utf8 (['{', ' '] ++ ['a'])).length = 3 := by decide
      have : k = 2 := by dsimp only at h1 h2; omega
      subst this; rfl
    · have e1 : (utf8 ['{', ' ', 'a', ' ']).length = 4 := by decide
      have e2 : (utf8 (['{', ' ', 'a', ' '] ++ ['}'])).length = 5 := by decide
      have : k = 4 := by dsimp only at h1 h2; omega
      subst this; rfl

end GQL
