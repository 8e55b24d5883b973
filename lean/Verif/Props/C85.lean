/-
C85 A line and a column name one token.
-/
import Verif.Props.C08Exact
import Verif.Proofs.PosOrder
import Verif.Props.C14

namespace GQL
open Spec

/-- The position of `a` is before that of `b`. -/
def Token.Before (a b : Token) : Prop := a.line < b.line ∨ (a.line = b.line ∧ a.col < b.col)

/-- C85: of two tokens of a text without NUL, the later one has the later position, whatever the line ends, unless it is an empty
string at the very end of the text; and the end of the text has the last position of all. -/
theorem C85_order (cs : List Char) (h : '\x00' ∉ cs) (items : List Item) (rest : List Char)
    (hl : Lex GoBlock [] cs items rest) (hf : rest = [] ∨ Stuck GoBlock rest) :
    ∃ toks last, tokens (utf8 cs) = .ret (toks ++ [last]) ∧ SameTokens toks items ∧ toks.length = items.length ∧
      (∀ (i j : Nat) (hij : i < j) (hj : j < toks.length) (hj' : j < items.length),
        ¬ (items[j].chars = ['"', '"'] ∧ items[j].before ++ items[j].chars = cs) → Token.Before toks[i] toks[j]) ∧
      (rest = [] → ∀ t ∈ toks, Token.Before t last) := by
  obtain ⟨toks, last, h1, h2, h3, h4⟩ := C08_exact cs h items rest hl hf
  have hne := lex_chars_ne (fun _ _ _ h => lexeme_split h) hl
  have hlen : toks.length = items.length := by
    have := congrArg List.length h2
    simpa using this
  have hp : (positions cs ⟨1, 0⟩ 0 items).length = items.length := positions_length ..
  have get : ∀ k (hk : k < toks.length) (hk' : k < (positions cs ⟨1, 0⟩ 0 items).length),
      toks[k].line = (positions cs ⟨1, 0⟩ 0 items)[k].1 ∧ toks[k].col = ((positions cs ⟨1, 0⟩ 0 items)[k].2 : Int) := by
    intro k hk hk'
    have e : (toks.map (fun t => (t.line, t.col)))[k]'(by simpa using hk) =
        ((positions cs ⟨1, 0⟩ 0 items).map (fun p => (p.1, (p.2 : Int))))[k]'(by simpa using hk') := by simp only [h3]
    rw [List.getElem_map, List.getElem_map] at e
    exact ⟨congrArg Prod.fst e, congrArg Prod.snd e⟩
  refine ⟨toks, last, h1, h2, hlen, ?_, ?_⟩
  · intro i j hij hj hj' hn
    have hpw := List.pairwise_iff_getElem.1 (pos_pairwise (text := cs) (p := ⟨1, 0⟩) (read := 0) hne)
    have he : emptyAtEnd cs items[j] = 0 := if_neg hn
    have := hpw i j (by simp [hp]; omega) (by simp [hp]; omega) hij
    simp only [List.getElem_zip] at this
    have := this he
    obtain ⟨a1, a2⟩ := get i (by omega) (by omega)
    obtain ⟨b1, b2⟩ := get j hj (by omega)
    unfold Token.Before
    unfold PosLt at this
    rw [a1, a2, b1, b2]
    omega
  · intro hr t ht
    obtain ⟨-, e1, e2⟩ := h4 hr
    obtain ⟨k, hk, rfl⟩ := List.mem_iff_getElem.1 ht
    obtain ⟨a1, a2⟩ := get k hk (by omega)
    have := pos_end (text := cs) (p := ⟨1, 0⟩) (read := 0) hne _ (List.getElem_mem (show k < (positions cs ⟨1, 0⟩ 0 items).length by omega))
    unfold Token.Before
    unfold PLe at this
    rw [a1, a2, e1, e2]
    dsimp only at this
    omega


/-- C85, but for texts that end in an empty string: no two tokens have the same line and column, nor has the end of the text those
of a token. -/
theorem C85_partial (cs : List Char) (h : '\x00' ∉ cs) (items : List Item) (rest : List Char)
    (hl : Lex GoBlock [] cs items rest) (hf : rest = [] ∨ Stuck GoBlock rest)
    (hq : ∀ i ∈ items, ¬ (i.chars = ['"', '"'] ∧ i.before ++ i.chars = cs)) :
    ∃ toks last, tokens (utf8 cs) = .ret (toks ++ [last]) ∧ SameTokens toks items ∧
      (∀ (i j : Nat) (hi : i < toks.length) (hj : j < toks.length),
        toks[i].line = toks[j].line → toks[i].col = toks[j].col → i = j) ∧
      (rest = [] → ∀ t ∈ toks, ¬ (t.line = last.line ∧ t.col = last.col)) := by
  obtain ⟨toks, last, h1, h2, h3, h4, h5⟩ := C85_order cs h items rest hl hf
  refine ⟨toks, last, h1, h2, fun i j hi hj e1 e2 => ?_, fun hr t ht => ?_⟩
  · rcases Nat.lt_trichotomy i j with hij | hij | hij
    · have := h4 i j hij hj (by omega) (hq _ (List.getElem_mem _))
      unfold Token.Before at this; omega
    · exact hij
    · have := h4 j i hij hi (by omega) (hq _ (List.getElem_mem _))
      unfold Token.Before at this; omega
  · have := h5 hr t ht
    unfold Token.Before at this; omega

/-- A text with CR and CRLF and a block string, to which the theorems apply. -/
example : ∃ items, '\x00' ∉ c!"a\r\n\"\"\"\r\n\"\"\"b" ∧ Lex GoBlock [] c!"a\r\n\"\"\"\r\n\"\"\"b" items [] ∧
    (∀ i ∈ items, ¬ (i.chars = ['"', '"'] ∧ i.before ++ i.chars = c!"a\r\n\"\"\"\r\n\"\"\"b")) ∧ items.length = 3 ∧
    positions c!"a\r\n\"\"\"\r\n\"\"\"b" ⟨1, 0⟩ 0 items = [(1, 1), (2, 2), (4, 10)] := by
  refine ⟨[⟨⟨.name, ['a']⟩, [], ['a']⟩, ⟨⟨.string, c!""⟩, c!"a\r\n", c!"\"\"\"\r\n\"\"\""⟩, ⟨⟨.name, ['b']⟩, c!"a\r\n\"\"\"\r\n\"\"\"", ['b']⟩],
    by decide, ?_, by decide, rfl, by decide⟩
  refine .token (lx := ['a']) (.name 'a' [] _ rfl (by simp) (by intro c t e; cases e; rfl)) <| .ignore rfl <| .ignore rfl <|
    .token (lx := c!"\"\"\"\r\n\"\"\"") (.block (s := c!"\r\n\"\"\"b") ⟨c!"\n\n", ?_, by decide⟩) <|
    .token (lx := ['b']) (.name 'b' [] _ rfl (by simp) (by intro c t e; cases e)) <| .done _ _
  refine .cr (s := c!"\n\"\"\"b") (v := c!"\n") (rest := c!"b") ?_
  exact .char '\n' (by decide) (by decide) (by decide) (by decide) <| .close _

/-- C85 is false for a text that ends in an empty string. -/
theorem C85_refuted : tokens (utf8 c!"a\"\"") = .ret [⟨.name, b!"a", 1, 1⟩, ⟨.stringValue, [], 1, 1⟩, ⟨.eof, [], 1, 3⟩] := by decide

theorem lex_nil {B : List Char → List Char → List Char → Prop} {pre text rest : List Char} {items : List Item}
    (hB : ∀ s tok rest, Lexeme B s tok rest → ∃ lx, s = lx ++ rest ∧ lx ≠ []) (h : Lex B pre text items rest) (ht : text = []) : items = [] := by
  cases h with
  | done => rfl
  | ignore => cases ht
  | comment => cases ht
  | token hl =>
    obtain ⟨lx', e, hne⟩ := hB _ _ _ hl
    have := List.append_cancel_right e
    subst this
    exact absurd (List.append_eq_nil_iff.1 ht).1 hne

/-- The item with which a text ends is the last one. -/
theorem lex_last {B : List Char → List Char → List Char → Prop} {pre text rest : List Char} {items : List Item}
    (hB : ∀ s tok rest, Lexeme B s tok rest → ∃ lx, s = lx ++ rest ∧ lx ≠ []) (h : Lex B pre text items rest) :
    ∀ (j : Nat) (hj : j < items.length), items[j].before ++ items[j].chars = pre ++ text → j + 1 = items.length := by
  induction h with
  | done => intro j hj; simp at hj
  | ignore _ _ ih => intro j hj e; exact ih j hj (by rw [e]; simp)
  | comment _ _ _ ih => intro j hj e; exact ih j hj (by rw [e]; simp)
  | @token pre lx text tok items rest hl hx ih =>
    intro j hj e
    cases j with
    | zero =>
      have e : pre ++ lx = pre ++ (lx ++ text) := e
      have : text = [] := by
        have := congrArg List.length e
        simp at this
        exact this
      rw [lex_nil hB hx this]; rfl
    | succ j =>
      have := ih j (by simp at hj; omega) (by
        rw [List.getElem_cons_succ] at e; rw [e]; simp)
      simp; omega

theorem defn_string_two {pf : Bytes → Option Nat} {lax : Bool} {t : Token} {ts rest : Toks} {b : Body} (h : Defn pf lax (t :: ts) b rest)
    (hk : t.kind = .stringValue) : rest.length < ts.length := by
  have name : ∀ {l ts' r}, Nm l ts' r → ts' = t :: ts → False := by
    rintro l ts' r ⟨t', e, h1, -⟩ rfl
    cases e; rw [hk] at h1; cases h1
  have punct : ∀ {l ts' r}, Pu l ts' r → ts' = t :: ts → False := by
    rintro l ts' r ⟨t', e, h1, -⟩ rfl
    cases e; rw [hk] at h1; cases h1
  generalize e : t :: ts = ts' at h
  cases h with
  | op h =>
    cases h with
    | shorthand h => cases h with | mk h => exact (punct h e.symm).elim
    | full h =>
      cases h with
      | query h => exact (name h e.symm).elim
      | mutation h => exact (name h e.symm).elim
      | subscription h => exact (name h e.symm).elim
  | frag h => cases h with | mk h => exact (name h e.symm).elim
  | schema h => cases h with | mk h => exact (name h e.symm).elim
  | schemaDesc _ h1 h2 =>
    obtain ⟨t', e', -⟩ := h1
    cases e.trans e'
    cases h2 with
    | mk h3 h4 h5 => exact ((tok1_eats h3).trans ((dirs_eats h4).trans (opTypeDefns_eats h5).1)).2
  | type h1 h2 =>
    rcases h1 with ⟨t', e', -⟩ | ⟨-, -, e'⟩
    · cases e.trans e'
      exact (typeDefn_eats h2).2
    · subst e'
      cases h2 with
      | scalar h => exact (name h e.symm).elim
      | object h => exact (name h e.symm).elim
      | interface h => exact (name h e.symm).elim
      | union h => exact (name h e.symm).elim
      | enum h => exact (name h e.symm).elim
      | input h => exact (name h e.symm).elim
  | directive h1 h2 =>
    rcases h1 with ⟨t', e', -⟩ | ⟨-, -, e'⟩
    · cases e.trans e'
      exact (dirDefn_eats h2).2
    · subst e'
      cases h2 with | mk h => exact (name h e.symm).elim
  | schemaExt h => exact (name h e.symm).elim
  | typeExt h => exact (name h e.symm).elim

/-- Every later token has a later position, except a string at the end. -/
def Ordered (toks : List Token) : Prop :=
  ∀ pre a mid b post, toks = pre ++ a :: (mid ++ b :: post) → (b.kind = .stringValue → post ≠ []) → Token.Before a b

theorem defs_first {pf : Bytes → Option Nat} {ts rest : Toks} {defs : List Definition} (h : Many (LocDefn pf true) ts defs rest)
    (hr : rest ≠ []) :
    ∀ d ∈ defs, ∃ mid b post, ts = mid ++ b :: post ∧ d.loc = ⟨b.line, b.col⟩ ∧ 1 ≤ post.length ∧ (b.kind = .stringValue → 2 ≤ post.length) := by
  induction h with
  | nil => intro d hd; cases hd
  | @cons ts a r as rest h1 h2 ih =>
    intro d hd
    rcases List.mem_cons.1 hd with rfl | hd
    · cases h1 with
      | @mk t ts b _ h1 =>
        have l2 := (manyDefs_eats pf h2).length
        have := List.length_pos_iff.2 hr
        refine ⟨[], t, ts, rfl, rfl, ?_, fun hk => ?_⟩
        · have := (defn_eats h1).2
          simp at this; omega
        · have l1 := defn_string_two h1 hk
          omega
    · obtain ⟨mid, b, post, e, e2, e3⟩ := ih hr d hd
      obtain ⟨pre, e4, -⟩ := (locDefn_eats h1).1
      exact ⟨pre ++ mid, b, post, by rw [e4, e]; simp, e2, e3⟩

theorem defs_pairwise {pf : Bytes → Option Nat} {ts rest : Toks} {defs : List Definition} {toks : List Token} {last : Token}
    (ho : Ordered toks) (h : Many (LocDefn pf true) ts defs rest) (hr : rest ≠ []) (hs : ∃ read, toks ++ [last] = read ++ ts) :
    (defs.map (·.loc)).Pairwise (fun a b => a.line < b.line ∨ (a.line = b.line ∧ a.col < b.col)) := by
  induction h with
  | nil => exact List.Pairwise.nil
  | @cons ts a r as rest h1 h2 ih =>
    obtain ⟨read, hs⟩ := hs
    obtain ⟨pre, e4, h5⟩ := (locDefn_eats h1).1
    have hpos := (locDefn_eats h1).2
    rw [List.map_cons]
    refine List.Pairwise.cons (fun l hl => ?_) (ih hr ⟨read ++ pre, by rw [hs, e4]; simp⟩)
    obtain ⟨d, hd, rfl⟩ := List.mem_map.1 hl
    obtain ⟨mid, b, post, e, e2, e3⟩ := defs_first h2 hr d hd
    cases h1 with
    | @mk t ts body _ h1 =>
      rw [e2]
      show Token.Before t b
      obtain _ | ⟨t', pre⟩ := pre
      · rw [List.nil_append] at e4; rw [← e4] at hpos; omega
      cases (List.cons.inj e4).1
      have ets := (List.cons.inj e4).2
      have full : toks ++ [last] = read ++ t :: (pre ++ mid ++ b :: post) := by rw [hs, ets, e]; simp
      rcases List.eq_nil_or_concat post with rfl | ⟨post', x, rfl⟩
      · simp at e3
      · have full2 : toks ++ [last] = (read ++ t :: (pre ++ mid ++ b :: post')) ++ [x] := by rw [full]; simp
        have e6 := (List.append_inj' full2 rfl).1
        refine ho read t (pre ++ mid) b post' e6 fun hk hh => ?_
        have := e3.2 hk
        rw [hh] at this; simp at this

theorem quote_string {t rest : List Char} {tok : Tok} (h : Lexeme GoBlock ('"' :: t) tok rest) : tok.kind = .string := by
  have num : ∀ {i x : List Char}, IsIntegerPart i → '"' :: t = i ++ x → False := by
    intro i x hi e
    obtain ⟨c, w, rfl, -, h⟩ := intPart_head hi
    rw [List.cons_append] at e
    have := (List.cons.inj e).1
    subst this
    rcases h with h | h <;> revert h <;> decide
  generalize e : '"' :: t = s at h
  cases h with
  | punct c _ h => have := (List.cons.inj e).1; subst this; revert h; decide
  | spread => have := (List.cons.inj e).1; revert this; decide
  | name c w _ h => have := (List.cons.inj e).1; subst this; exact absurd h (by decide)
  | int _ _ h => exact (num h e).elim
  | fraction _ _ _ h => exact (num h (by rw [e, List.append_assoc])).elim
  | exponent _ _ _ h => exact (num h (by rw [e, List.append_assoc])).elim
  | fracExp _ _ _ _ h => exact (num h (by rw [e, List.append_assoc, List.append_assoc])).elim
  | string => rfl
  | block => rfl

/-- An empty string is a string. -/
theorem lex_string {pre text rest : List Char} {items : List Item} (h : Lex GoBlock pre text items rest) :
    ∀ i ∈ items, i.chars = ['"', '"'] → i.tok.kind = .string := by
  induction h with
  | done => intro i hi; cases hi
  | ignore _ _ ih => exact ih
  | comment _ _ _ ih => exact ih
  | @token pre lx text tok items rest hl _ ih =>
    intro i hi hc
    rcases List.mem_cons.1 hi with rfl | hi
    · have hc : lx = ['"', '"'] := hc
      subst hc
      exact quote_string hl
    · exact ih i hi hc

/-- C85 for definitions: the locations of the definitions of a document, parsed from a text without NUL, increase; no two definitions have
the same. -/
theorem C85_definitions (pf : Bytes → Option Nat) (cs : List Char) (h0 : '\x00' ∉ cs) (d : Document) (h : parse pf (utf8 cs) = .ok d) :
    (d.defs.map (·.loc)).Pairwise (fun a b => a.line < b.line ∨ (a.line = b.line ∧ a.col < b.col)) := by
  obtain ⟨items, rest, -, -, hl, hf, -⟩ := C03_tokens cs h0
  obtain ⟨toks, last, h1, h2, h3, h4, -⟩ := C85_order cs h0 items rest hl hf
  obtain ⟨x, r, -, hm, -⟩ := (C15_exact_partial pf (utf8 cs) _ h1 d.defs).1 ⟨d, h, rfl⟩
  refine defs_pairwise (toks := toks) (last := last) ?_ hm (by simp) ⟨[], rfl⟩
  intro pre a mid b post e hp
  have hb : toks[(pre ++ a :: mid).length]? = some b := by
    have : toks = (pre ++ a :: mid) ++ b :: post := by rw [e]; simp
    rw [this, List.getElem?_append_right (Nat.le_refl _)]; simp
  have ha : toks[pre.length]? = some a := by
    rw [e, List.getElem?_append_right (Nat.le_refl _)]; simp
  obtain ⟨hj, hb⟩ := List.getElem?_eq_some_iff.1 hb
  obtain ⟨hi, ha⟩ := List.getElem?_eq_some_iff.1 ha
  have := h4 pre.length (pre ++ a :: mid).length (by simp) hj (by omega) (by
    rintro ⟨q1, q2⟩
    have hlast := lex_last (fun _ _ _ h => lexeme_split h) hl _ (by omega) q2
    have hlen : toks.length = (pre ++ a :: mid).length + 1 + post.length := by rw [e]; simp +arith
    have hpost : post = [] := List.length_eq_zero_iff.1 (by omega)
    refine hp ?_ hpost
    have hk : (toks.map (fun t => (t.kind, t.lit)))[(pre ++ a :: mid).length]'(by simpa using hj) =
        (items.map (fun i => (goKind i.tok.kind, utf8 i.tok.value)))[(pre ++ a :: mid).length]'(by rw [List.length_map]; omega) := by
      simp only [show _ = _ from h2]
    rw [List.getElem_map, List.getElem_map, hb] at hk
    have hs := lex_string hl _ (List.getElem_mem (show (pre ++ a :: mid).length < items.length by omega)) q1
    exact (congrArg Prod.fst hk).trans (by rw [hs]; rfl))
  rw [ha, hb] at this
  exact this

/-- A document of three definitions, with a description, over lines that end in CR, CRLF and LF. -/
example : ∃ d, parse (fun _ => none) b!"{a}\r\n\n\"\"type A\rscalar B" = .ok d ∧
    d.defs.map (·.loc) = [⟨1, 1⟩, ⟨2, 3⟩, ⟨3, 1⟩] := ⟨_, (parse_eq (ts := [⟨.punctuator, b!"{", 1, 1⟩, ⟨.name, b!"a", 1, 2⟩, ⟨.punctuator, b!"}", 1, 3⟩, ⟨.stringValue, [], 2, 3⟩, ⟨.name, b!"type", 2, 5⟩, ⟨.name, b!"A", 2, 10⟩, ⟨.name, b!"scalar", 3, 1⟩, ⟨.name, b!"B", 3, 8⟩, ⟨.eof, [], 3, 9⟩]) (by decide) rfl), rfl⟩

end GQL
