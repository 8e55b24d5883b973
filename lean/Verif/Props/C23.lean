/-
C23 Printing and re-parsing gives the same document: refuted for some documents, proved for the others.
C24 String values survive printing: refuted for some strings, proved for the others.

`fmtG` is `fmt.Sprintf("%g", x)`, `pf` is `strconv.ParseFloat`; both are arbitrary here, `DocOk` says what is needed of them for the floats of the document.
-/
import Verif.Proofs.DumpAll
import Verif.Proofs.Named

namespace GQL
open Spec

variable (pf : Bytes → Option Nat) (fmtG : Nat → Bytes)

/-- The input has no NUL byte, and it is valid UTF-8 or at least ends with an ASCII character (otherwise a name may contain a NUL byte or an invalid last byte, see C04). -/
def Spec.CleanText (input : Bytes) : Prop := 0 ∉ input ∧ ((∀ b, input.getLast? = some b → b < 0x80) ∨ ∃ cs, input = utf8 cs)

theorem tokensF_names (input : Bytes) (h0 : 0 ∉ input) (hlast : ∀ b, input.getLast? = some b → b < 0x80) : ∀ (n : Nat) (l : Lexer) (ts : List Token), Reach input l → tokensF n l = .ret ts → Names ts
  | 0, _, _, _, h => by simp [tokensF] at h
  | n + 1, l, ts, hr, h => by
    rw [tokensF] at h
    cases e : scan l with
    | panic => rw [e] at h; cases h
    | oof => rw [e] at h; cases h
    | ret p =>
      obtain ⟨t, l'⟩ := p
      rw [e] at h
      dsimp only at h
      have ht : t.kind = .name → NameText t.lit := by
        intro hk
        obtain ⟨c, w, h1, h2, h3, -⟩ := C04_name_partial input h0 hlast l hr t l' e hk
        exact ⟨c, w, h1, h2, h3⟩
      split at h
      · cases h
        intro u hu
        rw [List.mem_singleton] at hu
        subst hu; exact ht
      · cases e2 : tokensF n l' with
        | panic => rw [e2] at h; cases h
        | oof => rw [e2] at h; cases h
        | ret us =>
          rw [e2] at h
          cases h
          intro u hu
          rcases List.mem_cons.1 hu with rfl | hu
          · exact ht
          · exact tokensF_names input h0 hlast n l' us (.scan hr e) e2 u hu

theorem lexeme_name {B : List Char → List Char → List Char → Prop} {text rest : List Char} {tok : Tok} (h : Lexeme B text tok rest) (hk : tok.kind = .name) : NameText (utf8 tok.value) := by
  cases h with
  | name c w _ h1 h2 _ => exact ⟨c, w, rfl, h1, h2⟩
  | _ => cases hk

theorem lex_names {B : List Char → List Char → List Char → Prop} {pre cs : List Char} {items : List Item} {rest : List Char} (h : Lex B pre cs items rest) :
    ∀ i ∈ items, i.tok.kind = .name → NameText (utf8 i.tok.value) := by
  induction h with
  | done => intro i hi; cases hi
  | ignore _ _ ih => exact ih
  | comment _ _ _ ih => exact ih
  | token h _ ih =>
    intro i hi hk
    rcases List.mem_cons.1 hi with rfl | hi
    · exact lexeme_name h hk
    · exact ih i hi hk

theorem nul_utf8 {cs : List Char} (h : 0 ∉ utf8 cs) : '\x00' ∉ cs := by
  induction cs with
  | nil => simp
  | cons c cs ih =>
    rw [utf8_cons, List.mem_append, not_or] at h
    rw [List.mem_cons, not_or]
    exact ⟨fun e => h.1 (by rw [← e]; decide), ih h.2⟩

theorem tokens_names {input : Bytes} (hc : CleanText input) {ts : Toks} (ht : tokens input = .ret ts) : Names ts := by
  rcases hc.2 with h | ⟨cs, rfl⟩
  · exact tokensF_names input hc.1 h _ _ ts .new ht
  · obtain ⟨items, rest, toks, last, h1, -, h3, h4, h5⟩ := C03_tokens cs (nul_utf8 hc.1)
    rw [ht] at h3
    cases h3
    intro t htm hk
    rcases List.mem_append.1 htm with h | h
    · unfold SameTokens at h4
      have : (t.kind, t.lit) ∈ toks.map fun t => (t.kind, t.lit) := List.mem_map.2 ⟨t, h, rfl⟩
      rw [h4] at this
      obtain ⟨i, hi, e⟩ := List.mem_map.1 this
      simp only [Prod.mk.injEq] at e
      rw [← e.2]
      refine lex_names h1 i hi ?_
      have := e.1.trans hk
      generalize i.tok.kind = k at this
      cases k <;> first | rfl | exact absurd this (by decide)
    · rw [List.mem_singleton] at h
      subst h
      rw [hk] at h5
      split at h5 <;> cases h5

/-- The tokens of a printed text. -/
theorem J.tokens {s e : Bool} {out : Out Bytes} {x : Toks} (h : J s e out x) : ∃ t ts, out = .ret t ∧ tokens t = .ret ts ∧ Sim (x ++ [⟨.eof, [], 0, 0⟩]) ts := by
  obtain ⟨cs, rfl, hz, hr⟩ := h
  obtain ⟨-, r⟩ := hr [] fun _ c t e => by cases e
  obtain ⟨items, hl, rfl⟩ := r []
  rw [List.append_nil] at hl
  obtain ⟨i2, r2, toks, last, h1, h2, h3, h4, h5⟩ := C03_tokens cs hz
  obtain ⟨rfl, rfl⟩ := C03_deterministic cs hz _ _ _ _ hl (.inl rfl) h1 h2
  refine ⟨_, _, rfl, h3, ?_⟩
  rw [if_pos rfl] at h5
  unfold Sim
  unfold SameTokens at h4
  rw [List.map_append, List.map_append, h4]
  simp [itemToks, h5, tokens_eof_lit h3 (t := last) (by simp) h5]

theorem parse_mkDocument {input : Bytes} {d : Document} (h : parse pf input = .ok d) : d = mkDocument d.defs := by
  obtain ⟨ts, -, e⟩ := parse_tokens (pf := pf) (input := input)
  rw [e] at h; unfold parseTokens at h
  rcases e2 : parseDefs pf (ts.length + 1) ts with ⟨ds, _⟩ | ⟨er, _⟩ | _ | _ <;> rw [e2] at h
  · cases h; rw [mkDocument_defs]
  · cases h
  · cases h
  · cases h

/-- C23, for documents that are `DocOk` (Spec/Dump): the document is printed, and the printed text is accepted and gives the same document up to locations. -/
theorem C23_partial (input : Bytes) (hc : CleanText input) (d : Document) (h : parse pf input = .ok d) (ho : DocOk fmtG pf d) :
    ∃ t, sdump fmtG d = .ret t ∧ ∃ d', parse pf t = .ok d' ∧ noLoc d' = noLoc d := by
  obtain ⟨ts, ht, -⟩ := parse_tokens (pf := pf) (input := input)
  have hn := tokens_names hc ht
  obtain ⟨e, rest, hne, hm, -⟩ := (C15_exact_partial pf input ts ht d.defs).1 ⟨d, h, rfl⟩
  have mem := many_mem (fun _ _ _ h => (locDefn_eats h).1) hm hn
  obtain ⟨x, j, -, g⟩ := defs_dump (pf := pf) (fmtG := fmtG) d.defs.length d.defs 0 (by simp) fun a ha => by
    obtain ⟨ts', r, hn', ha'⟩ := mem a ha
    cases ha' with
    | mk hd =>
      refine ⟨_, _, hn', hd, ho.1 _ ha, fun h1 => ?_⟩
      rintro ⟨vs, dirs, sels, rfl, hv⟩
      obtain ⟨y, hy⟩ := List.length_eq_one_iff.1 h1
      rw [hy, List.mem_singleton] at ha
      exact ho.2 ⟨_, vs, dirs, sels, by rw [hy, ← ha], hv⟩
  obtain ⟨t, ts', hd, ht', hs⟩ := j.tokens
  have nd : NewDefn [⟨.eof, [], 0, 0⟩] := ⟨fun l _ => notNext_tk (.inl (by decide)), notNext_tk (.inl (by decide))⟩
  obtain ⟨ds', eb, m⟩ := g [⟨.eof, [], 0, 0⟩] nd
  have hne' : ds' ≠ [] := by
    rintro rfl
    exact hne (List.map_eq_nil_iff.1 eb.symm)
  obtain ⟨ds2, hd2, eb2⟩ := doc_sim (⟨_, _, hne', m, rfl⟩ : Doc pf true _ ds') hs
  obtain ⟨d', h', rfl⟩ := (C15_exact_partial pf t ts' ht' ds2).2 hd2
  refine ⟨t, hd, d', h', ?_⟩
  rw [parse_mkDocument pf h, parse_mkDocument pf h']
  exact mkDocument_bodies (by rw [eb2, eb])

/-- C24, for strings that are `StrOk` (Spec/Dump): at every depth the string is printed as a text that is one string token with this value. -/
theorem C24_partial (cs : List Char) (hz : '\x00' ∉ cs) (h : StrOk cs) (depth : Nat) :
    ∃ a b, tokens (dumpString depth (utf8 cs)) = .ret [a, b] ∧ a.kind = .stringValue ∧ a.lit = utf8 cs ∧ b.kind = .eof := by
  obtain ⟨t, ts, e1, e2, e3⟩ := (J.str depth hz h).tokens
  have e1 := Out.ret.inj e1
  rw [← e1] at e2
  unfold Sim at e3
  match ts, e3 with
  | [a, b], e3 =>
    simp at e3
    exact ⟨a, b, e2, e3.1.1.symm, e3.1.2.symm, e3.2.1.symm⟩
  | [], e3 => simp at e3
  | [a], e3 => simp at e3
  | a :: b :: c :: l, e3 => simp at e3

/-! ### The hypotheses are met -/

/-- The definitions of the example. -/
def dumpExample : List Definition :=
  [⟨⟨1, 1⟩, .op ⟨.query, b!"Q", [⟨b!"a", .list (.named b!"Int" true) true, some (.list [.int 1, .int (-2)])⟩], [⟨b!"d", [⟨b!"x", .str b!"a/\t"⟩], .query⟩],
      [.field b!"a" b!"f" [⟨b!"x", .obj [(b!"k", .var b!"a")]⟩] [] [.field [] b!"g" [] [] [], .inline (some (.named b!"T" false)) [] [.field [] b!"h" [] [] []], .spread b!"F" []]]⟩⟩,
   ⟨⟨1, 93⟩, .type ⟨b!"desc", b!"T", .object, [.named b!"A" false, .named b!"B" false], [],
      [⟨[], b!"f", [⟨[], b!"a", .named b!"Int" false, [], some (.int 3)⟩], .named b!"S" true, []⟩], [], [], []⟩⟩,
   ⟨⟨1, 146⟩, .directive ⟨[], b!"d", [⟨[], b!"x", .named b!"S" false, [], none⟩], 9⟩⟩]

set_option maxRecDepth 16000 in
/-- A document with most constructs meets the hypotheses of `C23_partial`. -/
example : CleanText b!"query Q($a: [Int!]! = [1, -2]) @d(x: \"a/\\t\") { a: f(x: {k: $a}) { g ... on T { h } ...F } } \"desc\" type T implements A & B { f(a: Int = 3): S! } directive @d(x: S) on FIELD | QUERY" ∧
    ∃ d, parse pf b!"query Q($a: [Int!]! = [1, -2]) @d(x: \"a/\\t\") { a: f(x: {k: $a}) { g ... on T { h } ...F } } \"desc\" type T implements A & B { f(a: Int = 3): S! } directive @d(x: S) on FIELD | QUERY" = .ok d ∧
      DocOk fmtG pf d := by
  obtain ⟨d, h1, h2⟩ : ∃ d, parse pf b!"query Q($a: [Int!]! = [1, -2]) @d(x: \"a/\\t\") { a: f(x: {k: $a}) { g ... on T { h } ...F } } \"desc\" type T implements A & B { f(a: Int = 3): S! } directive @d(x: S) on FIELD | QUERY" = .ok d ∧
      d.defs = dumpExample :=
    ⟨_, (parse_eq (ts := [⟨.name, b!"query", 1, 1⟩, ⟨.name, b!"Q", 1, 7⟩, ⟨.punctuator, b!"(", 1, 8⟩, ⟨.punctuator, b!"$", 1, 9⟩, ⟨.name, b!"a", 1, 10⟩, ⟨.punctuator, b!":", 1, 11⟩, ⟨.punctuator, b!"[", 1, 13⟩, ⟨.name, b!"Int", 1, 14⟩, ⟨.punctuator, b!"!", 1, 17⟩, ⟨.punctuator, b!"]", 1, 18⟩, ⟨.punctuator, b!"!", 1, 19⟩, ⟨.punctuator, b!"=", 1, 21⟩, ⟨.punctuator, b!"[", 1, 23⟩, ⟨.intValue, b!"1", 1, 24⟩, ⟨.intValue, b!"-2", 1, 27⟩, ⟨.punctuator, b!"]", 1, 29⟩, ⟨.punctuator, b!")", 1, 30⟩, ⟨.punctuator, b!"@", 1, 32⟩, ⟨.name, b!"d", 1, 33⟩, ⟨.punctuator, b!"(", 1, 34⟩, ⟨.name, b!"x", 1, 35⟩, ⟨.punctuator, b!":", 1, 36⟩, ⟨.stringValue, b!"a/\t", 1, 38⟩, ⟨.punctuator, b!")", 1, 44⟩, ⟨.punctuator, b!"{", 1, 46⟩, ⟨.name, b!"a", 1, 48⟩, ⟨.punctuator, b!":", 1, 49⟩, ⟨.name, b!"f", 1, 51⟩, ⟨.punctuator, b!"(", 1, 52⟩, ⟨.name, b!"x", 1, 53⟩, ⟨.punctuator, b!":", 1, 54⟩, ⟨.punctuator, b!"{", 1, 56⟩, ⟨.name, b!"k", 1, 57⟩, ⟨.punctuator, b!":", 1, 58⟩, ⟨.punctuator, b!"$", 1, 60⟩, ⟨.name, b!"a", 1, 61⟩, ⟨.punctuator, b!"}", 1, 62⟩, ⟨.punctuator, b!")", 1, 63⟩, ⟨.punctuator, b!"{", 1, 65⟩, ⟨.name, b!"g", 1, 67⟩, ⟨.punctuator, b!"...", 1, 69⟩, ⟨.name, b!"on", 1, 73⟩, ⟨.name, b!"T", 1, 76⟩, ⟨.punctuator, b!"{", 1, 78⟩, ⟨.name, b!"h", 1, 80⟩, ⟨.punctuator, b!"}", 1, 82⟩, ⟨.punctuator, b!"...", 1, 84⟩, ⟨.name, b!"F", 1, 87⟩, ⟨.punctuator, b!"}", 1, 89⟩, ⟨.punctuator, b!"}", 1, 91⟩, ⟨.stringValue, b!"desc", 1, 93⟩, ⟨.name, b!"type", 1, 100⟩, ⟨.name, b!"T", 1, 105⟩, ⟨.name, b!"implements", 1, 107⟩, ⟨.name, b!"A", 1, 118⟩, ⟨.punctuator, b!"&", 1, 120⟩, ⟨.name, b!"B", 1, 122⟩, ⟨.punctuator, b!"{", 1, 124⟩, ⟨.name, b!"f", 1, 126⟩, ⟨.punctuator, b!"(", 1, 127⟩, ⟨.name, b!"a", 1, 128⟩, ⟨.punctuator, b!":", 1, 129⟩, ⟨.name, b!"Int", 1, 131⟩, ⟨.punctuator, b!"=", 1, 135⟩, ⟨.intValue, b!"3", 1, 137⟩, ⟨.punctuator, b!")", 1, 138⟩, ⟨.punctuator, b!":", 1, 139⟩, ⟨.name, b!"S", 1, 141⟩, ⟨.punctuator, b!"!", 1, 142⟩, ⟨.punctuator, b!"}", 1, 144⟩, ⟨.name, b!"directive", 1, 146⟩, ⟨.punctuator, b!"@", 1, 156⟩, ⟨.name, b!"d", 1, 157⟩, ⟨.punctuator, b!"(", 1, 158⟩, ⟨.name, b!"x", 1, 159⟩, ⟨.punctuator, b!":", 1, 160⟩, ⟨.name, b!"S", 1, 162⟩, ⟨.punctuator, b!")", 1, 163⟩, ⟨.name, b!"on", 1, 165⟩, ⟨.name, b!"FIELD", 1, 168⟩, ⟨.punctuator, b!"|", 1, 174⟩, ⟨.name, b!"QUERY", 1, 176⟩, ⟨.eof, [], 1, 181⟩]) (by decide) rfl), rfl⟩
  refine ⟨⟨by decide, .inl (by decide)⟩, d, h1, ?_, ?_⟩
  · have nodesc : DescriptionOk [] := ⟨[], rfl, by simp, .inl rfl⟩
    have str : ValOk fmtG pf (.str b!"a/\t") := ⟨c!"a/\t", rfl, by decide, (by
      unfold StrOk
      rw [if_neg (by decide)]
      exact (by decide : ∀ c ∈ c!"a/\t", printable c = true ∨ c = '\x08' ∨ c = '\x0c'))⟩
    have desc : DescriptionOk b!"desc" := ⟨c!"desc", rfl, by decide, .inr ⟨by
      refine .char (by decide) (by decide) (by decide) (.inl (by decide)) ?_
      refine .char (by decide) (by decide) (by decide) (.inl (by decide)) ?_
      refine .char (by decide) (by decide) (by decide) (.inl (by decide)) ?_
      refine .char (by decide) (by decide) (by decide) (.inl (by decide)) ?_
      exact .nil, by
      refine ⟨?_, ?_, 'd', c!"esc", by decide, by decide⟩
      · intro l e; cases e; decide
      · intro l e; cases e; decide⟩⟩
    rw [h2]
    simp [dumpExample, BodyOk, OpOk, VarOk, TyOk, DefaultOk, DirsOk, ArgsOk, SelsOk, SelOk, TypeOk, FieldOk, InputOk, Plain1, Plain2, nodesc, desc, ValOk, ValsOk, FldsOk]
    exact str
  · rintro ⟨l, vs, dirs, sels, e, -⟩
    rw [h2] at e
    simp [dumpExample] at e

/-- Strings of both forms meet the hypotheses of `C24_partial`. -/
example : StrOk c!"a\"\\/é\t" ∧ StrOk c!"a\n  \"\"\" b\\" := by
  constructor
  · unfold StrOk
    rw [if_neg (by decide)]
    exact (by decide : ∀ c ∈ c!"a\"\\/é\t", printable c = true ∨ c = '\x08' ∨ c = '\x0c')
  · unfold StrOk
    rw [if_pos (by decide)]
    constructor
    · refine .char (by decide) (by decide) (by decide) (.inl (by decide)) ?_
      refine .char (by decide) (by decide) (by decide) (.inr (by decide)) ?_
      refine .char (by decide) (by decide) (by decide) (.inl (by decide)) ?_
      refine .char (by decide) (by decide) (by decide) (.inl (by decide)) ?_
      refine .quotes rfl ?_
      refine .char (by decide) (by decide) (by decide) (.inl (by decide)) ?_
      refine .char (by decide) (by decide) (by decide) (.inl (by decide)) ?_
      exact .last
    · refine ⟨?_, ?_, 'a', [], by decide, by decide⟩
      · intro l e; cases e; decide
      · intro l e; cases e; decide

/-! ### What is not `DocOk` -/

/-- The document does not survive: the printed text is rejected, or gives another document, or there is no printed text. -/
def Spec.Lost (input : Bytes) : Prop :=
  ∃ d, parse pf input = .ok d ∧ ∀ t d', sdump fmtG d = .ret t → parse pf t = .ok d' → noLoc d' ≠ noLoc d

/-- An anonymous query with variables or directives is printed without `query`, if it is the only definition. -/
theorem C23_refuted_query : Lost pf fmtG b!"query ($a: Int) { b }" := by
  refine ⟨_, (parse_eq (ts := [⟨.name, b!"query", 1, 1⟩, ⟨.punctuator, b!"(", 1, 7⟩, ⟨.punctuator, b!"$", 1, 8⟩, ⟨.name, b!"a", 1, 9⟩, ⟨.punctuator, b!":", 1, 10⟩, ⟨.name, b!"Int", 1, 12⟩, ⟨.punctuator, b!")", 1, 15⟩, ⟨.punctuator, b!"{", 1, 17⟩, ⟨.name, b!"b", 1, 19⟩, ⟨.punctuator, b!"}", 1, 21⟩, ⟨.eof, [], 1, 22⟩]) (by decide) rfl), fun t d' ht hp => ?_⟩
  cases (show b!"($a: Int){\n  b\n}" = t from Out.ret.inj ht)
  rw [(parse_eq (ts := [⟨.punctuator, b!"(", 1, 1⟩, ⟨.punctuator, b!"$", 1, 2⟩, ⟨.name, b!"a", 1, 3⟩, ⟨.punctuator, b!":", 1, 4⟩, ⟨.name, b!"Int", 1, 6⟩, ⟨.punctuator, b!")", 1, 9⟩, ⟨.punctuator, b!"{", 1, 10⟩, ⟨.name, b!"b", 2, 3⟩, ⟨.punctuator, b!"}", 3, 1⟩, ⟨.eof, [], 3, 2⟩]) (by decide) rfl)] at hp
  cases hp

/-- List types are printed as nothing in field and argument definitions. -/
theorem C23_refuted_list : Lost pf fmtG b!"type T { f(a: [Int]): [S!] }" := by
  refine ⟨_, (parse_eq (ts := [⟨.name, b!"type", 1, 1⟩, ⟨.name, b!"T", 1, 6⟩, ⟨.punctuator, b!"{", 1, 8⟩, ⟨.name, b!"f", 1, 10⟩, ⟨.punctuator, b!"(", 1, 11⟩, ⟨.name, b!"a", 1, 12⟩, ⟨.punctuator, b!":", 1, 13⟩, ⟨.punctuator, b!"[", 1, 15⟩, ⟨.name, b!"Int", 1, 16⟩, ⟨.punctuator, b!"]", 1, 19⟩, ⟨.punctuator, b!")", 1, 20⟩, ⟨.punctuator, b!":", 1, 21⟩, ⟨.punctuator, b!"[", 1, 23⟩, ⟨.name, b!"S", 1, 24⟩, ⟨.punctuator, b!"!", 1, 25⟩, ⟨.punctuator, b!"]", 1, 26⟩, ⟨.punctuator, b!"}", 1, 28⟩, ⟨.eof, [], 1, 29⟩]) (by decide) rfl), fun t d' ht hp => ?_⟩
  cases (show b!"type T {\n  f(a: ): \n}" = t from Out.ret.inj ht)
  rw [(parse_eq (ts := [⟨.name, b!"type", 1, 1⟩, ⟨.name, b!"T", 1, 6⟩, ⟨.punctuator, b!"{", 1, 8⟩, ⟨.name, b!"f", 2, 3⟩, ⟨.punctuator, b!"(", 2, 4⟩, ⟨.name, b!"a", 2, 5⟩, ⟨.punctuator, b!":", 2, 6⟩, ⟨.punctuator, b!")", 2, 8⟩, ⟨.punctuator, b!":", 2, 9⟩, ⟨.punctuator, b!"}", 3, 1⟩, ⟨.eof, [], 3, 2⟩]) (by decide) rfl)] at hp
  cases hp

/-- Three quotes are not escaped in descriptions. -/
theorem C23_refuted_description : Lost pf fmtG b!"\"a\\\"\\\"\\\"b\" scalar S" := by
  refine ⟨_, (parse_eq (ts := [⟨.stringValue, b!"a\"\"\"b", 1, 1⟩, ⟨.name, b!"scalar", 1, 12⟩, ⟨.name, b!"S", 1, 19⟩, ⟨.eof, [], 1, 20⟩]) (by decide) rfl), fun t d' ht hp => ?_⟩
  cases (show b!"\"\"\"\na\"\"\"b\n\"\"\"\nscalar S" = t from Out.ret.inj ht)
  rw [(parse_eq (ts := [⟨.stringValue, b!"a", 1, 1⟩, ⟨.name, b!"b", 2, 9⟩, ⟨.illegal, b!"unexpected eof, probably unclosed block string", 3, 1⟩]) (by decide) rfl)] at hp
  cases hp

/-- A carriage return is not escaped in strings. -/
theorem C23_refuted_string : Lost pf fmtG b!"{ a(x: \"b\\rc\") }" := by
  refine ⟨_, (parse_eq (ts := [⟨.punctuator, b!"{", 1, 1⟩, ⟨.name, b!"a", 1, 3⟩, ⟨.punctuator, b!"(", 1, 4⟩, ⟨.name, b!"x", 1, 5⟩, ⟨.punctuator, b!":", 1, 6⟩, ⟨.stringValue, b!"b\rc", 1, 8⟩, ⟨.punctuator, b!")", 1, 14⟩, ⟨.punctuator, b!"}", 1, 16⟩, ⟨.eof, [], 1, 17⟩]) (by decide) rfl), fun t d' ht hp => ?_⟩
  cases (show b!"{\n  a(x: \"b\rc\")\n}" = t from Out.ret.inj ht)
  rw [(parse_eq (ts := [⟨.punctuator, b!"{", 1, 1⟩, ⟨.name, b!"a", 2, 3⟩, ⟨.punctuator, b!"(", 2, 4⟩, ⟨.name, b!"x", 2, 5⟩, ⟨.punctuator, b!":", 2, 6⟩, ⟨.illegal, b!"invalid character within string: '\\r'", 2, 8⟩]) (by decide) rfl)] at hp
  cases hp

/-- The parser accepts a non-null type condition, the dumper drops the `!`. -/
theorem C23_refuted_condition : Lost pf fmtG b!"{ ... on T! { a } }" := by
  refine ⟨_, (parse_eq (ts := [⟨.punctuator, b!"{", 1, 1⟩, ⟨.punctuator, b!"...", 1, 3⟩, ⟨.name, b!"on", 1, 7⟩, ⟨.name, b!"T", 1, 10⟩, ⟨.punctuator, b!"!", 1, 11⟩, ⟨.punctuator, b!"{", 1, 13⟩, ⟨.name, b!"a", 1, 15⟩, ⟨.punctuator, b!"}", 1, 17⟩, ⟨.punctuator, b!"}", 1, 19⟩, ⟨.eof, [], 1, 20⟩]) (by decide) rfl), fun t d' ht hp => ?_⟩
  cases (show b!"{\n  ... on T {\n    a\n  }\n}" = t from Out.ret.inj ht)
  rw [(parse_eq (ts := [⟨.punctuator, b!"{", 1, 1⟩, ⟨.punctuator, b!"...", 2, 3⟩, ⟨.name, b!"on", 2, 7⟩, ⟨.name, b!"T", 2, 10⟩, ⟨.punctuator, b!"{", 2, 12⟩, ⟨.name, b!"a", 3, 5⟩, ⟨.punctuator, b!"}", 4, 3⟩, ⟨.punctuator, b!"}", 5, 1⟩, ⟨.eof, [], 5, 2⟩]) (by decide) rfl)] at hp
  cases hp
  intro e
  cases e

/-- A float whose shortest form has no point is printed as an integer (as `%g` prints 1.0). -/
theorem C23_refuted_float (n : Nat) (h1 : pf b!"1.0" = some n) (h2 : fmtG n = b!"1") : Lost pf fmtG b!"{ a(x: 1.0) }" := by
  obtain ⟨d, hd, e⟩ : ∃ d, parse pf b!"{ a(x: 1.0) }" = .ok d ∧ d.defs = [⟨⟨1, 1⟩, .op ⟨.query, [], [], [], [.field [] b!"a" [⟨b!"x", .float n⟩] [] []]⟩⟩] := by
    obtain ⟨ts, ht, -⟩ := parse_tokens (pf := pf) (input := b!"{ a(x: 1.0) }")
    have ht' : tokens b!"{ a(x: 1.0) }" = .ret [⟨.punctuator, b!"{", 1, 1⟩, ⟨.name, b!"a", 1, 3⟩, ⟨.punctuator, b!"(", 1, 4⟩, ⟨.name, b!"x", 1, 5⟩, ⟨.punctuator, b!":", 1, 6⟩, ⟨.floatValue, b!"1.0", 1, 8⟩, ⟨.punctuator, b!")", 1, 11⟩, ⟨.punctuator, b!"}", 1, 13⟩, ⟨.eof, [], 1, 14⟩] := by decide
    have hdoc : Doc pf true [⟨.punctuator, b!"{", 1, 1⟩, ⟨.name, b!"a", 1, 3⟩, ⟨.punctuator, b!"(", 1, 4⟩, ⟨.name, b!"x", 1, 5⟩, ⟨.punctuator, b!":", 1, 6⟩, ⟨.floatValue, b!"1.0", 1, 8⟩, ⟨.punctuator, b!")", 1, 11⟩, ⟨.punctuator, b!"}", 1, 13⟩, ⟨.eof, [], 1, 14⟩] [⟨⟨1, 1⟩, .op ⟨.query, [], [], [], [.field [] b!"a" [⟨b!"x", .float n⟩] [] []]⟩⟩] := by
      refine ⟨_, [], by simp, .cons (.mk (.op (.shorthand (.mk ⟨_, rfl, rfl, rfl⟩ (.one (.leaf (.plain ⟨_, rfl, rfl, rfl⟩ ?_) (.some ⟨_, rfl, rfl, rfl⟩
        (.cons (.mk ⟨_, rfl, rfl, rfl⟩ ⟨_, rfl, rfl, rfl⟩ (.float ⟨_, rfl, rfl, rfl⟩ h1)) (.nil _)) ⟨_, rfl, rfl, rfl⟩ (.inr rfl)) ⟨.nil _, ?_⟩ ?_)) ⟨_, rfl, rfl, rfl⟩)))) (.nil _), rfl⟩
      all_goals (rintro r ⟨t, e, e1, e2⟩; cases e; revert e1 e2; decide)
    obtain ⟨d, h, e⟩ := (C15_exact_partial pf _ _ ht' _).2 hdoc
    exact ⟨d, h, e⟩
  refine ⟨d, hd, fun t d' ht hp => ?_⟩
  have : sdump fmtG d = .ret b!"{\n  a(x: 1)\n}" := by
    have : sdump fmtG d = .ret (b!"{\n  a(x: " ++ fmtG n ++ b!")\n}") := by unfold sdump; rw [e]; simp [dumpDefinitions, forEach, forEachFrom, dumpDefinition, dumpOperationDefinition, dumpSelections, dumpSelectionList, dumpSelection, dumpArguments, dumpArgument, dumpValue, dumpOptDirectives, seqOut, Out.bind, indentOf, repeatStr, indentation]
    rw [this, h2]; rfl
  rw [this] at ht
  cases Out.ret.inj ht
  rw [(parse_eq (ts := [⟨.punctuator, b!"{", 1, 1⟩, ⟨.name, b!"a", 2, 3⟩, ⟨.punctuator, b!"(", 2, 4⟩, ⟨.name, b!"x", 2, 5⟩, ⟨.punctuator, b!":", 2, 6⟩, ⟨.intValue, b!"1", 2, 8⟩, ⟨.punctuator, b!")", 2, 9⟩, ⟨.punctuator, b!"}", 3, 1⟩, ⟨.eof, [], 3, 2⟩]) (by decide) rfl)] at hp
  cases hp
  intro e2
  have e3 := congrArg Document.defs e2
  unfold noLoc at e3
  rw [e] at e3
  cases e3

/-- A list type without item type, as the parser makes of `[`, makes the dumper panic. -/
theorem C23_refuted_panic : ∃ d, parse pf b!"query Q($a: [) { b }" = .ok d ∧ sdump fmtG d = .panic :=
  ⟨_, (parse_eq (ts := [⟨.name, b!"query", 1, 1⟩, ⟨.name, b!"Q", 1, 7⟩, ⟨.punctuator, b!"(", 1, 8⟩, ⟨.punctuator, b!"$", 1, 9⟩, ⟨.name, b!"a", 1, 10⟩, ⟨.punctuator, b!":", 1, 11⟩, ⟨.punctuator, b!"[", 1, 13⟩, ⟨.punctuator, b!")", 1, 14⟩, ⟨.punctuator, b!"{", 1, 16⟩, ⟨.name, b!"b", 1, 18⟩, ⟨.punctuator, b!"}", 1, 20⟩, ⟨.eof, [], 1, 21⟩]) (by decide) rfl), rfl⟩

/-- The string does not survive. -/
def Spec.LostStr (s : Bytes) : Prop := ∀ a b, tokens (dumpString 0 s) = .ret [a, b] → ¬ (a.kind = .stringValue ∧ a.lit = s)

/-- C24 fails for control characters, for white space that reading a block string removes, for a backslash before three quotes, for bytes that are not UTF-8, and for NUL. -/
theorem C24_refuted : LostStr b!"\r" ∧ LostStr b!"\x01" ∧ LostStr b!"\n" ∧ LostStr b!"a\n" ∧ LostStr b!"  a\n  b" ∧ LostStr b!"a\n\\\"\"\"" ∧ LostStr [0xff] ∧ LostStr [0] := by
  refine ⟨?_, ?_, ?_, ?_, ?_, ?_, ?_, ?_⟩
  all_goals
    intro a b h
    rintro ⟨h1, h2⟩
    revert h
  · rw [show tokens (dumpString 0 b!"\r") = .ret [⟨.illegal, b!"invalid character within string: '\\r'", 1, 1⟩] by decide]
    intro h; cases h
  · rw [show tokens (dumpString 0 b!"\x01") = .ret [⟨.illegal, b!"invalid character within string: '\\x01'", 1, 1⟩] by decide]
    intro h; cases h
  · rw [show tokens (dumpString 0 b!"\n") = .ret [⟨.stringValue, [], 1, 1⟩, ⟨.eof, [], 4, 14⟩] by decide]
    intro h; cases h; revert h2; decide
  · rw [show tokens (dumpString 0 b!"a\n") = .ret [⟨.stringValue, b!"a", 1, 1⟩, ⟨.eof, [], 4, 15⟩] by decide]
    intro h; cases h; revert h2; decide
  · rw [show tokens (dumpString 0 b!"  a\n  b") = .ret [⟨.stringValue, b!"a\nb", 1, 1⟩, ⟨.eof, [], 4, 20⟩] by decide]
    intro h; cases h; revert h2; decide
  · rw [show tokens (dumpString 0 b!"a\n\\\"\"\"") = .ret [⟨.stringValue, b!"a\n\\\\", 1, 1⟩, ⟨.illegal, b!"unexpected eof, probably unclosed block string", 4, 1⟩] by decide]
    intro h; cases h; revert h2; decide
  · rw [show tokens (dumpString 0 [0xff]) = .ret [⟨.stringValue, [239, 191, 189], 1, 1⟩, ⟨.eof, [], 1, 9⟩] by decide]
    intro h; cases h; revert h2; decide
  · rw [show tokens (dumpString 0 [0]) = .ret [⟨.illegal, b!"invalid character within string: '\\x00'", 1, 1⟩] by decide]
    intro h; cases h

end GQL
