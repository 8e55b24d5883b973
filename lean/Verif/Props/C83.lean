/-
C83: the caller may reuse the input buffer.

The model of strings as windows on the buffer is Model/Alias, Model/AliasAst and Model/AliasParser: `tokensA` and
`parseA` give tokens and a document whose strings are windows; `readAs buf` is what they read while `buf` is in
the buffer.
-/
import Verif.Proofs.AliasTouch
import Verif.Props.C14

namespace GQL

section
variable (pf : Bytes → Option Nat)

/-- Nothing has been written to the buffer: everything is as in the model in which strings are values, which all the other properties are
about. -/
theorem C83_scan_untouched (l : Lexer) (h : l.pos ≤ l.input.length) : (scanA l).readAs l.input = scan l := scanA_read l h

theorem C83_tokens_untouched (input : Bytes) : (tokensA input).readAll input = tokens input := tokensA_read input

/-- A buffer in which every token still reads the same. -/
theorem parseA_readAs (input b : Bytes) (ts : List ATok) (ht : tokensA input = .ret ts) (h : ∀ t ∈ ts, t.read b = t.read input) :
    (parseA pf input).readAs b = parse pf input := by
  have e := tokensA_read input
  rw [ht] at e
  have key : ∀ b', (∀ t ∈ ts, t.lit.value b' = t.lit.value input) →
      RelR input (fun t => t.lit.value b' = t.lit.value input) (RF (List.map (ADefinition.read b'))) (parseDefsA input pf (ts.length + 1) ts)
        (parseDefs pf (ts.length + 1) (ts.map (ATok.read input))) := fun b' hb =>
    parseDefsA_com (inp := input) (b := b') (G := fun t => t.lit.value b' = t.lit.value input) ⟨fun _ h => h, rfl⟩ pf (ts.length + 1) ts hb
  have h1 := key b (fun t htm => congrArg Token.lit (h t htm))
  have h2 := key input (fun _ _ => rfl)
  unfold parseA parse
  rw [ht, ← e]
  dsimp only [Out.readAll]
  unfold parseTokensA parseTokens
  rw [List.length_map]
  generalize parseDefsA input pf (ts.length + 1) ts = x at h1 h2
  generalize parseDefs pf (ts.length + 1) (ts.map (ATok.read input)) = y at h1 h2
  cases h1 with
  | @ok a a' r e1 _ =>
    cases h2 with
    | ok e2 _ =>
      dsimp only [AParseOut.readAs, ADocument.read]
      rw [← e2, ← e1]
      exact congrArg ParseOut.ok (by rw [show ({ mkDocument a' with defs := a' } : Document) = { mkDocument a' with defs := (mkDocument a').defs } by rw [mkDocument_defs]])
  | err _ => rfl
  | panic => rfl
  | oof => rfl

/-- Nothing has been written to the buffer: the document is the one of the model in which strings are values. -/
theorem C83_untouched (input : Bytes) : (parseA pf input).readAs input = parse pf input := by
  have e := tokensA_read input
  cases ht : tokensA input with
  | ret ts => exact parseA_readAs pf input input ts ht (fun _ _ => rfl)
  | panic =>
    rw [ht] at e
    unfold parseA parse
    rw [ht, ← e]; rfl
  | oof =>
    rw [ht] at e
    unfold parseA parse
    rw [ht, ← e]; rfl

/-- Two buffers have the same bytes wherever the text of a token is. -/
def SameUnder (input b : Bytes) (t : ATok) : Prop := ∀ off len, t.lit = .view off len → ∀ i, off ≤ i → i < off + len → b[i]? = input[i]?

theorem take_drop_congr {b c : Bytes} {off len : Nat} (h : ∀ i, off ≤ i → i < off + len → b[i]? = c[i]?) : (b.drop off).take len = (c.drop off).take len := by
  apply List.ext_getElem?
  intro i
  rw [List.getElem?_take, List.getElem?_take]
  split
  · rw [List.getElem?_drop, List.getElem?_drop]
    exact h _ (by omega) (by omega)
  · rfl

/-- Writing to the rest of the buffer — white space, comments, quotes, escaped strings — does no harm. -/
theorem C83_rest_partial (input b : Bytes) (ts : List ATok) (ht : tokensA input = .ret ts) (h : ∀ t ∈ ts, SameUnder input b t) :
    (parseA pf input).readAs b = parse pf input := by
  refine parseA_readAs pf input b ts ht ?_
  intro t htm
  have := h t htm
  have hl : t.lit.value b = t.lit.value input := by
    cases e : t.lit with
    | own x => rfl
    | view off len => exact take_drop_congr (this off len e)
  unfold ATok.read
  rw [hl]

/-- An error stays what it is, whatever is written to the buffer. -/
theorem C83_error (input b : Bytes) (e : PErr) (h : parse pf input = .err e) : (parseA pf input).readAs b = .err e := by
  have h1 := C83_untouched pf input
  rw [h] at h1
  cases hp : parseA pf input with
  | ok d => rw [hp] at h1; cases h1
  | err e' => rw [hp] at h1; cases h1; rfl
  | panic => rw [hp] at h1; cases h1
  | oof => rw [hp] at h1; cases h1

/-- A document stays a document with as many definitions, at the same locations, and the same counters. -/
theorem C83_shape (input b : Bytes) (d : Document) (h : parse pf input = .ok d) :
    ∃ d', (parseA pf input).readAs b = .ok d' ∧ d'.defs.map (·.loc) = d.defs.map (·.loc) ∧ d' = { d with defs := d'.defs } := by
  have h1 := C83_untouched pf input
  rw [h] at h1
  cases hp : parseA pf input with
  | ok a =>
    rw [hp] at h1
    have h2 := ParseOut.ok.inj h1
    refine ⟨a.read b, rfl, ?_, ?_⟩
    · rw [← h2]
      simp only [ADocument.read, List.map_map]
      rfl
    · rw [← h2]
      rfl
  | err e' => rw [hp] at h1; cases h1
  | panic => rw [hp] at h1; cases h1
  | oof => rw [hp] at h1; cases h1

/-- No accepted document survives: overwrite every byte of the buffer, and every definition reads differently. -/
theorem C83_every_document (input : Bytes) (d : Document) (h : parse pf input = .ok d) :
    ∃ b d', b.length = input.length ∧ (∀ x ∈ b, x < 256) ∧ (parseA pf input).readAs b = .ok d' ∧ d'.defs.length = d.defs.length ∧ 0 < d.defs.length ∧
      ∀ (i : Nat) (x x' : Definition), d.defs[i]? = some x → d'.defs[i]? = some x' → x' ≠ x := by
  have h1 := C83_untouched pf input
  rw [h] at h1
  unfold parseA at h1 ⊢
  cases ht : tokensA input with
  | panic => rw [ht] at h1; cases h1
  | oof => rw [ht] at h1; cases h1
  | ret ts =>
    rw [ht] at h1
    dsimp only at h1 ⊢
    unfold parseTokensA at h1 ⊢
    cases hp : parseDefsA input pf (ts.length + 1) ts with
    | err e r => rw [hp] at h1; cases h1
    | panic => rw [hp] at h1; cases h1
    | oof => rw [hp] at h1; cases h1
    | ok defs r =>
      rw [hp] at h1
      have h2 := ParseOut.ok.inj h1
      obtain ⟨⟨h3, h4⟩, -⟩ := parseDefsA_via (b' := flipAll input) pf (ts.length + 1) ts defs r (tokens_moved ht) hp
      have h5 : d.defs = defs.map (ADefinition.read input) := by rw [← h2]; rfl
      refine ⟨flipAll input, _, flipAll_length input, ?_, rfl, ?_, ?_, ?_⟩
      · intro x hx
        obtain ⟨y, -, rfl⟩ := List.mem_map.1 hx
        split <;> omega
      · rw [h5]
        simp only [ADocument.read, List.length_map]
      · rw [h5, List.length_map]
        exact List.length_pos_iff.2 h3
      · intro i x x' hx hx' he
        rw [h5, List.getElem?_map] at hx
        replace hx' : (defs.map (ADefinition.read (flipAll input)))[i]? = some x' := hx'
        rw [List.getElem?_map] at hx'
        cases hi : defs[i]? with
        | none => rw [hi] at hx; cases hx
        | some a =>
          rw [hi] at hx hx'
          refine h4 a (List.mem_of_getElem? hi) ?_
          rw [Option.map_some] at hx hx'
          rw [Option.some.inj hx, Option.some.inj hx', he]

/-- Where the text of a token is: names, numbers and punctuators but `...` are windows that end where the scan stopped; the text of an error is a copy. -/
theorem C83_kinds (l l' : Lexer) (t : ATok) (h : scanA l = .ret (t, l')) :
    ((t.kind = .name ∨ t.kind = .intValue ∨ t.kind = .floatValue) → ∃ off len, t.lit = .view off len ∧ off + len = l'.pos) ∧
    (t.kind = .punctuator → t.lit = .own b!"..." ∨ ∃ off len, t.lit = .view off len ∧ off + len = l'.pos) ∧
    ((t.kind = .illegal ∨ t.kind = .eof) → ∃ x, t.lit = .own x) :=
  ⟨(scanA_placed h).word, (scanA_placed h).punct, (scanA_placed h).none⟩

/-- A string is safe from all writes exactly if it is a copy, or empty. -/
theorem C83_exact (input : Bytes) (s : Str) :
    (∀ b : Bytes, b.length = input.length → (∀ x ∈ b, x < 256) → s.value b = s.value input) ↔ (∃ x, s = .own x) ∨ s.value input = [] := by
  constructor
  · intro h
    cases s with
    | own x => exact .inl ⟨x, rfl⟩
    | view off len =>
      right
      apply Decidable.byContradiction
      intro hn
      refine flipAll_view input off len hn (h _ (flipAll_length input) ?_)
      intro x hx
      obtain ⟨y, -, rfl⟩ := List.mem_map.1 hx
      split <;> omega
  · rintro (⟨x, rfl⟩ | h) b hb -
    · rfl
    · cases s with
      | own x => rfl
      | view off len =>
        rw [h]
        apply List.eq_nil_of_length_eq_zero
        have := congrArg List.length h
        simp only [Str.value, List.length_take, List.length_drop, List.length_nil] at this ⊢
        omega

/-- The claim as stated is false: `{ a }` is parsed, the buffer is reused for `{ b }`, and the document of the first has become that of the second. -/
theorem C83_refuted : ∃ d d', parse pf b!"{ a }" = .ok d ∧ parse pf b!"{ b }" = .ok d' ∧ d ≠ d' ∧
    (parseA pf b!"{ a }").readAs b!"{ b }" = .ok d' := by
  refine ⟨_, _, (parse_eq (ts := [⟨.punctuator, b!"{", 1, 1⟩, ⟨.name, b!"a", 1, 3⟩, ⟨.punctuator, b!"}", 1, 5⟩, ⟨.eof, [], 1, 6⟩]) (by decide) rfl), (parse_eq (ts := [⟨.punctuator, b!"{", 1, 1⟩, ⟨.name, b!"b", 1, 3⟩, ⟨.punctuator, b!"}", 1, 5⟩, ⟨.eof, [], 1, 6⟩]) (by decide) rfl), ?_, rfl⟩
  intro h
  have := congrArg Document.defs h
  simp [mkDocument_defs, hd] at this

/-- A token: the name `a`, then the name `b`; an escaped string stays; a block string of one line does not, one of two lines does. -/
theorem C83_tokens_refuted : ∃ t l', scanA (newLexer b!"a") = .ret (t, l') ∧ (t.read b!"a").lit = b!"a" ∧ (t.read b!"b").lit = b!"b" := ⟨_, _, rfl, rfl, rfl⟩

example : ∃ t l', scanA (newLexer b!"\"a\\n\"") = .ret (t, l') ∧ t.lit = .own b!"a\n" := ⟨_, _, rfl, rfl⟩
example : ∃ t l', scanA (newLexer b!"\"an\"") = .ret (t, l') ∧ t.lit = .view 1 2 := ⟨_, _, rfl, rfl⟩
example : ∃ t l', scanA (newLexer b!"\"\"\"\n  an \n\"\"\"") = .ret (t, l') ∧ t.lit = .view 6 3 := ⟨_, _, rfl, rfl⟩
example : ∃ t l', scanA (newLexer b!"\"\"\"\n  an\n  b\n\"\"\"") = .ret (t, l') ∧ t.lit = .own b!"an\nb" := ⟨_, _, rfl, rfl⟩

example : ∃ e, parse pf b!"{ a" = .err e := ⟨_, (parse_eq (ts := [⟨.punctuator, b!"{", 1, 1⟩, ⟨.name, b!"a", 1, 3⟩, ⟨.eof, [], 1, 4⟩]) (by decide) rfl)⟩
example : ∃ d, parse pf b!"{ a }" = .ok d := ⟨_, (parse_eq (ts := [⟨.punctuator, b!"{", 1, 1⟩, ⟨.name, b!"a", 1, 3⟩, ⟨.punctuator, b!"}", 1, 5⟩, ⟨.eof, [], 1, 6⟩]) (by decide) rfl)⟩

/-- The hypotheses can be met: overwriting the spaces of `{ a }`. -/
example : ∃ ts, tokensA b!"{ a }" = .ret ts ∧ (∀ t ∈ ts, t.read b!"{#a#}" = t.read b!"{ a }") := by
  refine ⟨_, rfl, ?_⟩
  intro t ht
  simp only [List.mem_cons, List.not_mem_nil, or_false] at ht
  rcases ht with rfl | rfl | rfl | rfl <;> rfl

end

end GQL
