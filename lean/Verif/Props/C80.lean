/-
C80 Bytes that are not UTF-8 count as U+FFFD.
-/
import Verif.Props.C03
import Verif.Props.C11Doc
import Verif.Proofs.Repair
import Verif.Proofs.ParseStr
import Verif.Proofs.LexEof

namespace GQL
open Spec

variable (pf : Bytes → Option Nat)

/-! ### The text of some bytes -/

/-- Any bytes have a text, and only one. -/
theorem C80_text (b : Bytes) : ∃ cs, Repaired b cs ∧ ∀ ds, Repaired b ds → ds = cs := by
  obtain ⟨cs, h⟩ := repaired_total b.length b (Nat.le_refl _)
  exact ⟨cs, h, fun ds hd => repaired_unique hd h⟩

/-- The text of UTF-8 is what it encodes. -/
theorem C80_text_utf8 (cs : List Char) : Repaired (utf8 cs) cs := repaired_utf8 cs

theorem isRepair_exists : ∃ f, IsRepair f :=
  ⟨fun b => utf8 (Classical.choose (C80_text b)), fun b => ⟨_, (Classical.choose_spec (C80_text b)).1, rfl⟩⟩

/-! ### Tokens -/

theorem ascii_utf8 {cs : List Char} (h : ∀ c ∈ cs, c.toNat < 128) : ∀ x ∈ utf8 cs, x < 128 := by
  intro x hx
  unfold utf8 at hx
  rw [List.mem_flatMap] at hx
  obtain ⟨c, hc, hx⟩ := hx
  rw [utf8Char_ascii c (h c hc)] at hx
  rw [List.mem_singleton.1 hx]
  exact h c hc

theorem lexeme_ascii {s rest : List Char} {tok : Tok} (h : Lexeme GoBlock s tok rest) (hk : tok.kind ≠ .string) : ∀ c ∈ tok.value, c.toNat < 128 := by
  have dig : ∀ {c : Char}, c.isDigit = true → c.toNat < 128 := digit_ascii
  have ip : ∀ {i}, IsIntegerPart i → ∀ c ∈ i, c.toNat < 128 := by
    intro i h
    cases h with
    | zero => decide
    | negZero => decide
    | pos c ds h1 _ h2 =>
      intro x hx
      rcases List.mem_cons.1 hx with rfl | hx
      · exact dig h1
      · exact dig (h2 x hx)
    | neg c ds h1 _ h2 =>
      intro x hx
      rcases List.mem_cons.1 hx with rfl | hx
      · decide
      · rcases List.mem_cons.1 hx with rfl | hx
        · exact dig h1
        · exact dig (h2 x hx)
  have fp : ∀ {i}, IsFraction i → ∀ c ∈ i, c.toNat < 128 := by
    intro i h
    cases h with
    | mk ds h2 =>
      intro x hx
      rcases List.mem_cons.1 hx with rfl | hx
      · decide
      · exact dig (h2.2 x hx)
  have ep : ∀ {i}, IsExponent i → ∀ c ∈ i, c.toNat < 128 := by
    intro i h
    cases h with
    | plain e ds h1 h2 =>
      intro x hx
      rcases List.mem_cons.1 hx with rfl | hx
      · rcases h1 with rfl | rfl <;> decide
      · exact dig (h2.2 x hx)
    | signed e s ds h1 h2 h3 =>
      intro x hx
      rcases List.mem_cons.1 hx with rfl | hx
      · rcases h1 with rfl | rfl <;> decide
      · rcases List.mem_cons.1 hx with rfl | hx
        · rcases h2 with rfl | rfl <;> decide
        · exact dig (h3.2 x hx)
  cases h with
  | punct c rest h =>
    intro d hd
    rw [List.mem_singleton.1 hd]
    have : ∀ c ∈ punctuators, c.toNat < 128 := by decide
    exact this c h
  | spread => decide
  | name c w rest h1 h2 _ =>
    intro d hd
    rcases List.mem_cons.1 hd with rfl | hd
    · exact nameStart_ascii h1
    · have := h2 d hd
      unfold nameCont Char.isAlphanum at this
      by_cases hdg : d.isDigit = true
      · exact dig hdg
      · refine nameStart_ascii (c := d) ?_
        unfold nameStart
        simpa [hdg] using this
  | int i rest h _ => exact ip h
  | fraction i f rest h1 h2 _ =>
    intro c hc
    rcases List.mem_append.1 hc with hc | hc
    · exact ip h1 c hc
    · exact fp h2 c hc
  | exponent i f rest h1 h2 _ =>
    intro c hc
    rcases List.mem_append.1 hc with hc | hc
    · exact ip h1 c hc
    · exact ep h2 c hc
  | fracExp i f e rest h1 h2 h3 _ =>
    intro c hc
    rcases List.mem_append.1 hc with hc | hc
    · rcases List.mem_append.1 hc with hc | hc
      · exact ip h1 c hc
      · exact fp h2 c hc
    · exact ep h3 c hc
  | string => exact absurd rfl hk
  | block => exact absurd rfl hk

theorem items_ascii {pre cs rest : List Char} {items : List Item} (h : Lex GoBlock pre cs items rest) :
    ∀ i ∈ items, i.tok.kind ≠ .string → ∀ c ∈ i.tok.value, c.toNat < 128 := by
  induction h with
  | done => intro i hi; cases hi
  | ignore _ _ ih => exact ih
  | comment _ _ _ ih => exact ih
  | token h _ ih =>
    intro i hi
    rcases List.mem_cons.1 hi with rfl | hi
    · exact lexeme_ascii h
    · exact ih i hi

theorem tokens_ascii {cs : List Char} (h : '\x00' ∉ cs) {ts : List Token} (ht : tokens (utf8 cs) = .ret ts) :
    ∀ t ∈ ts, t.kind ≠ .stringValue → t.kind ≠ .illegal → ∀ x ∈ t.lit, x < 128 := by
  obtain ⟨items, rest, toks, last, h1, -, h3, h4, h5⟩ := C03_tokens cs h
  rw [ht] at h3
  have e := Out.ret.inj h3
  subst e
  intro t hm hk hi
  rcases List.mem_append.1 hm with hm | hm
  · have : (t.kind, t.lit) ∈ items.map (fun i => (goKind i.tok.kind, utf8 i.tok.value)) := by
      rw [← show toks.map (fun t => (t.kind, t.lit)) = _ from h4]
      exact List.mem_map.2 ⟨t, hm, rfl⟩
    obtain ⟨i, hi, e⟩ := List.mem_map.1 this
    have e1 := congrArg Prod.fst e
    have e2 := congrArg Prod.snd e
    dsimp only at e1 e2
    rw [← e2]
    refine ascii_utf8 (items_ascii h1 i hi ?_)
    intro hs
    rw [hs] at e1
    exact hk e1.symm
  · have hl := List.mem_singleton.1 hm
    subst hl
    have hke : t.kind = .eof := by
      rw [h5]
      split
      · rfl
      · rename_i hr
        rw [if_neg hr] at h5
        exact absurd h5 hi
    rw [tokens_eof_lit ht (List.mem_append_right _ hm) hke]
    intro x hx
    cases hx

/-- C80: bytes without NUL that end with a whole character and have no CR, non-ASCII byte, LF in
sequence: the tokens are those of the text, with string literals that have the text of the bytes there. -/
theorem C80_tokens_partial (b : Bytes) (cs : List Char) (h0 : 0 ∉ b) (he : EndsInChar b) (ht : ¬ Trap b) (hr : Repaired b cs) :
    ∃ ts ts', tokens b = .ret ts ∧ tokens (utf8 cs) = .ret ts' ∧ RepairedTokens ts ts' := by
  have hn := noNul_repaired hr h0
  obtain ⟨us, u, e, -, -, -⟩ := C01_tokens_end b
  obtain ⟨us', u', e', -, -, -⟩ := C01_tokens_end (utf8 cs)
  refine ⟨_, _, e, e', ?_⟩
  have hw : Twins (newLexer b) (newLexer (utf8 cs)) cs :=
    ⟨Nat.zero_le _, twin_of hr he, at_new cs, rfl, rfl, noNul_of hn, ht⟩
  have h := tokensF_both (b.length + 2) ((utf8 cs).length + 2) hw
  have ha := tokens_ascii hn e'
  unfold tokens at e e'
  rw [e, e'] at h
  generalize us ++ [u] = ts at h
  generalize us' ++ [u'] = ts' at h ha
  have h2 : All2T TokRel ts ts' := h
  clear e e' hw h
  induction h2 with
  | nil => exact .nil
  | @cons t t' ts ts' htt _ ih =>
    refine .cons ⟨htt.kind.symm, htt.line.symm, htt.col.symm, fun hk => ?_, fun _ => ?_⟩ (ih fun x hx => ha x (by simp [hx]))
    · by_cases hi : t.kind = .illegal
      · exact (htt.same hi).symm
      · exact (rep_ascii htt.lit (ha t' (by simp) (htt.kind ▸ hk) (htt.kind ▸ hi))).symm
    · obtain ⟨m, h1, h2⟩ := htt.lit
      exact ⟨m, h1, h2⟩

/-! ### Documents -/

theorem mkDocument_str (f : Bytes → Bytes) (ds : List Definition) : mkDocument (ds.map (strDef f)) = strDoc f (mkDocument ds) := by
  have key : ∀ (ds : List Definition) (st : Document × List Bytes),
      (ds.map (strDef f)).foldl addDef (strDoc f st.1, st.2) = (strDoc f (ds.foldl addDef st).1, (ds.foldl addDef st).2) := by
    intro ds
    induction ds with
    | nil => intro st; rfl
    | cons d ds ih =>
      intro st
      rw [List.map_cons, List.foldl_cons, List.foldl_cons, ← ih]
      congr 1
      obtain ⟨l, b⟩ := d
      cases b <;> rfl
  have h := key ds ({}, [])
  unfold mkDocument
  rw [show ((strDoc f (({}, []) : Document × List Bytes).1, (({}, []) : Document × List Bytes).2)) = (({}, []) : Document × List Bytes) from rfl] at h
  rw [h]
  generalize ds.foldl addDef (({} : Document), []) = st
  obtain ⟨⟨_, _, _, _, _, _, _, _⟩, ex⟩ := st
  simp [strDoc, List.map_reverse]

theorem parse_mk {i : Bytes} {d : Document} (h : parse pf i = .ok d) : d = mkDocument d.defs := by
  obtain ⟨ts, -, e⟩ := parse_tokens (pf := pf) (input := i)
  rw [e] at h; unfold parseTokens at h
  rcases e2 : parseDefs pf (ts.length + 1) ts with ⟨ds, _⟩ | ⟨er, _⟩ | _ | _ <;> rw [e2] at h
  · cases h; rw [mkDocument_defs]
  · cases h
  · cases h
  · cases h

theorem defs_strExt {f g : Bytes → Bytes} {ds ds' : List Definition} (h1 : ds'.map (fun d => strBody g d.body) = ds.map (fun d => strBody f d.body))
    (h2 : ds'.map (·.loc) = ds.map (·.loc)) : ds'.map (strDef g) = ds.map (strDef f) := by
  induction ds generalizing ds' with
  | nil => rw [List.map_eq_nil_iff.1 h1]; rfl
  | cons d ds ih =>
    cases ds' with
    | nil => simp at h1
    | cons d' ds' =>
      simp only [List.map_cons, List.cons.injEq] at h1 h2
      rw [List.map_cons, List.map_cons, ih h1.2 h2.2]
      simp only [strDef, h1.1, h2.1]

/-- Parsing tokens that differ in strings only. -/
theorem parse_str {i i' : Bytes} {ts ts' : Toks} (ht : tokens i = .ret ts) (ht' : tokens i' = .ret ts') {f g : Bytes → Bytes}
    (h0 : f [] = g []) (hs : SimS f g True ts ts') {d : Document} (h : parse pf i = .ok d) :
    ∃ d', parse pf i' = .ok d' ∧ strDoc g d' = strDoc f d := by
  have hd := (C15_exact_partial pf i ts ht d.defs).1 ⟨d, h, rfl⟩
  obtain ⟨ds', hd', eb, el⟩ := doc_str h0 hd hs
  obtain ⟨d', h', rfl⟩ := (C15_exact_partial pf i' ts' ht' ds').2 hd'
  refine ⟨d', h', ?_⟩
  rw [parse_mk pf h, parse_mk pf h', ← mkDocument_str, ← mkDocument_str, defs_strExt eb (el trivial)]

theorem strDoc_id (d : Document) : strDoc id d = d := by rw [strDoc, map_id_of strDef_id]

theorem repairedTokens_simS {f : Bytes → Bytes} (hf : IsRepair f) {ts ts' : Toks} (h : RepairedTokens ts ts') : SimS f id True ts ts' := by
  induction h with
  | nil => exact .nil
  | @cons t t' ts ts' h _ ih =>
    refine .cons h.kind.symm (fun hk => (h.lit hk).symm) (fun hk => ?_) (fun _ => ⟨h.line.symm, h.col.symm⟩) ih
    obtain ⟨m, h1, h2⟩ := h.str hk
    refine ⟨?_, rep_nil ⟨m, h1, h2⟩⟩
    obtain ⟨m2, h3, h4⟩ := hf t.lit
    rw [h4, h2, repaired_unique h3 h1]
    rfl

theorem isRepair_nil {f : Bytes → Bytes} (hf : IsRepair f) : f [] = [] := by
  obtain ⟨m, h, e⟩ := hf []
  rw [e, repaired_unique h .nil]
  rfl

/-- C80: such bytes are accepted exactly if their text is, and then the documents are the same except that in the second
the string literals and descriptions are the texts of those in the first. -/
theorem C80_parse_partial (b : Bytes) (cs : List Char) (h0 : 0 ∉ b) (he : EndsInChar b) (ht : ¬ Trap b) (hr : Repaired b cs)
    (f : Bytes → Bytes) (hf : IsRepair f) :
    (∀ d, parse pf b = .ok d → parse pf (utf8 cs) = .ok (strDoc f d)) ∧
    (∀ d', parse pf (utf8 cs) = .ok d' → ∃ d, parse pf b = .ok d ∧ d' = strDoc f d) := by
  obtain ⟨ts, ts', e1, e2, h⟩ := C80_tokens_partial b cs h0 he ht hr
  have hs := repairedTokens_simS hf h
  constructor
  · intro d hd
    obtain ⟨d', h1, h2⟩ := parse_str pf e1 e2 (isRepair_nil hf) hs hd
    rw [strDoc_id] at h2
    rw [h1, h2]
  · intro d' hd
    obtain ⟨d, h1, h2⟩ := parse_str pf e2 e1 (isRepair_nil hf).symm hs.symm hd
    rw [strDoc_id] at h2
    exact ⟨d, h1, h2.symm⟩

theorem bad_of_decode {x : Nat} {b : Bytes} (h : decodeRune (x :: b) = (runeError, 1)) : ∀ c t, x :: b ≠ utf8Char c ++ t := by
  intro c t e
  rw [e, decode_utf8Char] at h
  have h1 := (Prod.mk.inj h).1
  have h2 := (Prod.mk.inj h).2
  have : c = replacement := toNat_inj (c := c) (d := replacement) h1
  subst this
  exact absurd h2 (by decide)

theorem not_trap {b : Bytes} (h : 13 ∉ b) : ¬ Trap b := by
  rintro ⟨p, x, q, rfl, -⟩
  exact h (by simp)

theorem example_repaired : Repaired (b!"\"a" ++ [255] ++ b!"b\" scalar S #" ++ [0xC3] ++ b!"\n") "\"a\uFFFDb\" scalar S #\uFFFD\n".toList :=
  .char '"' <| .char 'a' <| .bad (bad_of_decode (by decide)) <| .char 'b' <| .char '"' <| .char ' ' <| .char 's' <| .char 'c' <|
  .char 'a' <| .char 'l' <| .char 'a' <| .char 'r' <| .char ' ' <| .char 'S' <| .char ' ' <| .char '#' <| .bad (bad_of_decode (by decide)) <|
  .char '\n' .nil

/-- The conditions are met by a document with a stray byte in a description and half a character in a comment, which is accepted. -/
example : ∃ b cs, 0 ∉ b ∧ EndsInChar b ∧ ¬ Trap b ∧ Repaired b cs ∧ b ≠ utf8 cs ∧ ∃ d, parse pf b = .ok d ∧ d.defs.length = 1 :=
  ⟨_, _, by decide, .inr ⟨b!"\"a" ++ [255] ++ b!"b\" scalar S #" ++ [0xC3], '\n', by decide⟩, not_trap (by decide), example_repaired, by decide, _,
    parse_eq (ts := [⟨.stringValue, [97, 255, 98], 1, 1⟩, ⟨.name, b!"scalar", 1, 7⟩, ⟨.name, b!"S", 1, 14⟩, ⟨.eof, [], 2, 1⟩]) (by decide) rfl, rfl⟩

/-! ### Without the conditions it is false -/

/-- A stray byte at the very end is overlooked: `a`, space, 0xFF are the tokens of `a`, but the text has an illegal character. -/
theorem C80_refuted_end :
    Repaired [97, 32, 255] ['a', ' ', replacement] ∧
    tokens [97, 32, 255] = .ret [⟨.name, b!"a", 1, 1⟩, ⟨.eof, [], 1, 4⟩] ∧
    tokens (utf8 ['a', ' ', replacement]) = .ret [⟨.name, b!"a", 1, 1⟩, ⟨.illegal, utf8 [replacement], 1, 3⟩] :=
  ⟨.char 'a' (.char ' ' (.bad (bad_of_decode (by decide)) .nil)), by decide, by decide⟩

/-- A document with a stray byte at its end is accepted, but its text is not. -/
theorem C80_refuted_accepts :
    (∃ d, parse pf (b!"{a}" ++ [255]) = .ok d) ∧ ∃ e, parse pf (b!"{a}" ++ utf8 [replacement]) = .err e :=
  ⟨⟨_, parse_eq (ts := [⟨.punctuator, b!"{", 1, 1⟩, ⟨.name, b!"a", 1, 2⟩, ⟨.punctuator, b!"}", 1, 3⟩, ⟨.eof, [], 1, 5⟩]) (by decide) rfl⟩,
   ⟨_, parse_eq (ts := [⟨.punctuator, b!"{", 1, 1⟩, ⟨.name, b!"a", 1, 2⟩, ⟨.punctuator, b!"}", 1, 3⟩, ⟨.illegal, utf8 [replacement], 1, 4⟩]) (by decide) rfl⟩⟩

/-- In a block string, CR, stray byte, LF: the line terminator before the byte is lost. -/
theorem C80_refuted_block :
    tokens (b!"\"\"\"a" ++ [13, 255, 10] ++ b!"b\"\"\"") = .ret [⟨.stringValue, b!"a" ++ utf8 [replacement] ++ b!"\nb", 1, 1⟩, ⟨.eof, [], 2, 12⟩] ∧
    tokens (b!"\"\"\"a" ++ [13] ++ utf8 [replacement] ++ [10] ++ b!"b\"\"\"") = .ret [⟨.stringValue, b!"a\n" ++ utf8 [replacement] ++ b!"\nb", 1, 1⟩, ⟨.eof, [], 3, 12⟩] := by
  decide

end GQL
