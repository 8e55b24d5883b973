/-
C71 Documents can be put one after the other.
-/
import Verif.Props.C11Doc
import Verif.Proofs.Concat

namespace GQL
open Spec

/-- Two texts, divided into tokens up to the end, on two lines. -/
theorem lex_concat {pre s rest : List Char} {items : List Item} (h : Lex GoBlock pre s items rest) (hr : rest = []) {s2 : List Char} {items2 : List Item}
    (h2 : Lex GoBlock [] s2 items2 []) (pre' : List Char) :
    ∃ items', Lex GoBlock pre' (s ++ '\n' :: s2) items' [] ∧ items'.map (·.tok) = (items ++ items2).map (·.tok) := by
  induction h generalizing pre' with
  | done =>
    subst hr
    obtain ⟨i, h, e⟩ := lex_rebase h2 (pre' ++ ['\n'])
    exact ⟨i, .ignore rfl h, by simpa using e⟩
  | ignore hc _ ih =>
    obtain ⟨i, h, e⟩ := ih hr _
    exact ⟨i, .ignore hc h, e⟩
  | @comment pre body text items rest h1 h2 _ ih =>
    obtain ⟨i, h, e⟩ := ih hr (pre' ++ '#' :: body)
    refine ⟨i, ?_, e⟩
    have := Lex.comment h1 (text := text ++ '\n' :: s2) (pre := pre') ?_ h
    · simpa using this
    · cases text with
      | nil => rintro c t e; cases e; rfl
      | cons d text => rintro c t e; cases e; exact h2 _ _ rfl
  | @token pre lx text tok items rest hlx hl ih =>
    obtain ⟨i, h, e⟩ := ih hr (pre' ++ lx)
    have := Lex.token (lexeme_follow hlx rfl (rest' := text ++ '\n' :: s2) ?_) h
    · exact ⟨_, by simpa using this, by simpa using e⟩
    · intro c t e
      cases text with
      | nil => left; left; cases e; rfl
      | cons d text => right; cases e; exact ⟨_, rfl⟩

theorem tokens_concat {a b : List Char} (ha : '\x00' ∉ a) (hb : '\x00' ∉ b) {ta tb : List Token} {e e' : Token}
    (h1 : tokens (utf8 a) = .ret (ta ++ [e])) (he : e.kind = .eof) (h2 : tokens (utf8 b) = .ret (tb ++ [e'])) (he' : e'.kind = .eof) :
    ∃ ts, tokens (utf8 (a ++ '\n' :: b)) = .ret ts ∧ Sim (ta ++ (tb ++ [e'])) ts := by
  obtain ⟨ia, la, sa, -⟩ := C03_spec_sound a ha _ _ h1 he
  obtain ⟨ib, lb, sb, -⟩ := C03_spec_sound b hb _ _ h2 he'
  obtain ⟨i, l, el⟩ := lex_concat la rfl lb []
  have h0 : '\x00' ∉ a ++ '\n' :: b := by simp [ha, hb]
  obtain ⟨i2, r2, toks', last', k1, k2, k3, k4, k5⟩ := C03_tokens _ h0
  obtain ⟨rfl, rfl⟩ := C03_deterministic _ h0 _ _ _ _ l (.inl rfl) k1 k2
  replace k5 : last'.kind = .eof := k5
  refine ⟨_, k3, ?_⟩
  unfold SameTokens at sa sb k4
  unfold Sim
  rw [List.map_append, List.map_append, List.map_append, sa, sb, k4]
  have := congrArg (List.map fun t : Tok => (goKind t.kind, utf8 t.value)) el
  simp only [List.map_map, List.map_append, Function.comp_def] at this
  rw [this, List.append_assoc]
  simp [he', k5, tokens_eof_lit h2 (t := e') (by simp) he', tokens_eof_lit k3 (t := last') (by simp) k5]

section
variable {pf : Bytes → Option Nat}

theorem defn_begins {ts bd r} (h : Defn pf true ts bd r) : Begins ts := by
  have nm : ∀ {l ts r}, Nm l ts r → l ≠ b!"implements" → Begins ts := by
    rintro l ts r ⟨t, rfl, h1, h2⟩ hl
    refine ⟨?_, ?_⟩
    · rintro l' r' ⟨t', e, k1, -⟩
      cases e
      rw [h1] at k1; cases k1
    · rintro r' ⟨t', e, -, k2⟩
      cases e
      exact hl (h2.symm.trans k2)
  have st : ∀ {l ts r}, Tok1 .stringValue l ts r → Begins ts := by
    rintro l ts r ⟨t, rfl, h1, h2⟩
    refine ⟨?_, ?_⟩
    · rintro l' r' ⟨t', e, k1, -⟩
      cases e
      rw [h1] at k1; cases k1
    · rintro r' ⟨t', e, k1, -⟩
      cases e
      rw [h1] at k1; cases k1
  have br : ∀ {ts r}, Pu b!"{" ts r → Begins ts := by
    rintro ts r ⟨t, rfl, h1, h2⟩
    refine ⟨?_, ?_⟩
    · rintro l' r' ⟨t', e, k1, k2⟩
      cases e
      exact k2.symm.trans h2
    · rintro r' ⟨t', e, k1, -⟩
      cases e
      rw [h1] at k1; cases k1
  have ty : ∀ {desc ts t r}, TypeDefn pf true desc ts t r → Begins ts := by
    intro desc ts t r h
    cases h with
    | scalar h => exact nm h (by decide)
    | object h => exact nm h (by decide)
    | interface h => exact nm h (by decide)
    | union h => exact nm h (by decide)
    | enum h => exact nm h (by decide)
    | input h => exact nm h (by decide)
  cases h with
  | op h => cases h with
    | shorthand h => cases h with | mk h => exact br h
    | full h => cases h with
      | query h => exact nm h (by decide)
      | mutation h => exact nm h (by decide)
      | subscription h => exact nm h (by decide)
  | frag h => cases h with | mk h => exact nm h (by decide)
  | schema h => cases h with | mk h => exact nm h (by decide)
  | schemaDesc _ h _ => exact st h
  | type h1 h2 =>
    rcases h1 with h1 | ⟨_, _, rfl⟩
    · exact st h1
    · exact ty h2
  | directive h1 h2 =>
    rcases h1 with h1 | ⟨_, _, rfl⟩
    · exact st h1
    · cases h2 with | mk h => exact nm h (by decide)
  | schemaExt h _ => exact nm h (by decide)
  | typeExt h _ _ => exact nm h (by decide)

theorem parse_many {input : Bytes} {d : Document} (h : parse pf input = .ok d) : ∃ us e, tokens input = .ret (us ++ [e]) ∧ e.kind = .eof ∧
    Many (LocDefn pf true) (us ++ [e]) d.defs [e] ∧ d.defs ≠ [] := by
  obtain ⟨ts, ht, -⟩ := parse_tokens (pf := pf) (input := input)
  obtain ⟨x, r, hne, hm, hx⟩ := (C15_exact_partial pf input ts ht d.defs).1 ⟨d, h, rfl⟩
  obtain ⟨us, t, e4, -, hall⟩ := tokens_shape ht
  obtain ⟨pre, e1⟩ : ∃ pre, ts = pre ++ x :: r := by
    clear hx hall e4 ht hne
    generalize x :: r = rr at hm
    generalize d.defs = ds at hm
    induction hm with
    | nil => exact ⟨[], rfl⟩
    | cons h1 _ ih =>
      obtain ⟨p, e⟩ := ih
      cases h1 with
      | mk h1 =>
        obtain ⟨⟨q, e', -⟩, -⟩ := defn_eats h1
        exact ⟨q ++ p, by rw [e', e]; simp⟩
  have hr : r = [] := by
    rcases List.eq_nil_or_concat r with rfl | ⟨r', y, rfl⟩
    · rfl
    · exfalso
      have e5 : us = pre ++ x :: r' := by
        have : us ++ [t] = (pre ++ x :: r') ++ [y] := by
          rw [← e4, e1]; simp
        exact (List.append_inj' this rfl).1
      exact (hall x (by rw [e5]; simp)).1 hx
  subst hr
  subst e1
  exact ⟨pre, x, ht, hx, hm, hne⟩

theorem many_append {α : Type} {R : Toks → α → Toks → Prop} {ts r rest : Toks} {as bs : List α} (h1 : Many R ts as r) (h2 : Many R r bs rest) :
    Many R ts (as ++ bs) rest := by
  induction h1 with
  | nil => exact h2
  | cons h _ ih => exact .cons h (ih h2)

end

section
variable {pf : Bytes → Option Nat}

theorem selSet_brace {ts ss} {e : Token} (h : SelSet pf true ts ss [e]) : ∃ r, Eats ts r ∧ Pu b!"}" r [e] := by
  cases h with
  | @mk ts r1 ss r2 rest h1 h2 h3 => exact ⟨r2, (tok1_eats h1).1.trans (sels_eats h2).1, h3⟩

/-- Operations and fragments end with `}`. -/
theorem executable_brace {ts bd} {e : Token} (h : Defn pf true ts bd [e]) (hb : (∃ o, bd = .op o) ∨ ∃ f, bd = .frag f) : ∃ r, Eats ts r ∧ Pu b!"}" r [e] := by
  cases h with
  | op h => cases h with
    | shorthand h => exact selSet_brace h
    | full h1 h2 h3 h4 h5 =>
      obtain ⟨r, k1, k2⟩ := selSet_brace h5
      exact ⟨r, (opType_eats h1).1.trans ((optTok_eats h2).trans ((varDefns_eats h3).trans ((dirs_eats h4).trans k1))), k2⟩
  | frag h => cases h with
    | mk h1 h2 h3 h4 h5 h6 =>
      obtain ⟨r, k1, k2⟩ := selSet_brace h6
      exact ⟨r, (tok1_eats h1).1.trans ((tok1_eats h2).1.trans ((typeCond_eats h4).1.trans ((dirs_eats h5).trans k1))), k2⟩
  | _ => rcases hb with ⟨_, hb⟩ | ⟨_, hb⟩ <;> cases hb

theorem executable_end {ts ds rest} {e : Token} (h : Many (LocDefn pf true) ts ds rest) (he : rest = [e]) (hn : ds ≠ [])
    (hb : ∀ d ∈ ds.getLast?, (∃ o, d.body = .op o) ∨ ∃ f, d.body = .frag f) : ∃ r, Eats ts r ∧ Pu b!"}" r [e] := by
  induction h with
  | nil => exact absurd rfl hn
  | @cons ts d r ds rest h1 h2 ih =>
    subst he
    cases h1 with
    | @mk t us bd _ h1 =>
      cases h2 with
      | nil => exact executable_brace h1 (hb ⟨⟨t.line, t.col⟩, bd⟩ rfl)
      | @cons _ y r2 ys _ h3 h4 =>
        obtain ⟨r', k1, k2⟩ := ih rfl (by simp) (fun d hd => hb d (by simpa [List.getLast?_cons_cons] using hd))
        exact ⟨r', (defn_eats h1).1.trans k1, k2⟩

end

/-- The text begins with the token. -/
def Spec.StartsWith (s : List Char) (k : TokenKind) (l : Bytes) : Prop := ∃ t ts, tokens (utf8 s) = .ret (t :: ts) ∧ t.kind = k ∧ t.lit = l

/-- The last token of the text. -/
def Spec.EndsWith (s : List Char) (k : TokenKind) (l : Bytes) : Prop := ∃ ts t e, tokens (utf8 s) = .ret (ts ++ [t, e]) ∧ t.kind = k ∧ t.lit = l

section
variable (pf : Bytes → Option Nat)

/-- **C71**, with the two exceptions that the code and the grammar make: two accepted documents, on two lines, are an accepted document with the definitions of both,
unless the second begins with `{` and the first ends with a definition whose braces are left out, or the second begins with a name and the first ends with `[`. -/
theorem C71_partial (a b : List Char) (ha : '\x00' ∉ a) (hb : '\x00' ∉ b) (da db : Document) (h1 : parse pf (utf8 a) = .ok da) (h2 : parse pf (utf8 b) = .ok db)
    (hopen : StartsWith b .punctuator b!"{" → ∀ d ∈ da.defs.getLast?, Closed d.body)
    (hbracket : EndsWith a .punctuator b!"[" → ∀ n, ¬ StartsWith b .name n) :
    ∃ d, parse pf (utf8 (a ++ '\n' :: b)) = .ok d ∧ d.defs.map (·.body) = (da.defs ++ db.defs).map (·.body) := by
  obtain ⟨ta, e, t1, he, m1, n1⟩ := parse_many h1
  obtain ⟨tb, e', t2, he', m2, n2⟩ := parse_many h2
  obtain ⟨ts, ht, hs⟩ := tokens_concat ha hb t1 he t2 he'
  have hbeg : Begins (tb ++ [e']) := by
    cases hd : db.defs with
    | nil => exact absurd hd n2
    | cons d ds =>
      rw [hd] at m2
      generalize tb ++ [e'] = b0 at m2
      cases m2 with
      | cons h _ => cases h with | mk h => exact defn_begins h
  have hstart : ∀ {k l r}, Tok1 k l (tb ++ [e']) r → StartsWith b k l := by
    rintro k l r ⟨t, et, k1, k2⟩
    exact ⟨t, r, et ▸ t2, k1, k2⟩
  have hx : Ext (tb ++ [e']) e (ta ++ [e]) (ta ++ (tb ++ [e'])) := by
    refine ⟨he, hbeg, ta, rfl, rfl, ?_⟩
    by_cases hend : EndsWith a .punctuator b!"["
    · exact .inl fun l r h => hbracket hend _ (hstart h)
    · right
      intro x hx hb
      refine hend ?_
      obtain ⟨us, rfl⟩ : ∃ us, ta = us ++ [x] := by
        rcases List.eq_nil_or_concat ta with rfl | ⟨r', y, rfl⟩
        · cases hx
        · simp at hx; exact ⟨r', by simp [hx]⟩
      exact ⟨us, x, e, by simpa using t1, hb.1, hb.2⟩
  have k1 := defs_ext m1 rfl n1 hx (fun d hd => by
    by_cases hst : StartsWith b .punctuator b!"{"
    · exact .inl (hopen hst d hd)
    · exact .inr fun r h => hst (hstart h))
  have hdoc : Doc pf true (ta ++ (tb ++ [e'])) (da.defs ++ db.defs) := ⟨e', [], by simp [n1], many_append k1 m2, he'⟩
  obtain ⟨ds', hd', eb⟩ := doc_sim hdoc hs
  obtain ⟨d, hp, rfl⟩ := (C15_exact_partial pf _ _ ht ds').2 hd'
  exact ⟨d, hp, eb⟩

/-- **C71 for operations and fragments**, without exception: an accepted document whose last definition is an operation or a fragment and any accepted document,
on two lines, are an accepted document with the definitions of both. -/
theorem C71_queries (a b : List Char) (ha : '\x00' ∉ a) (hb : '\x00' ∉ b) (da db : Document) (h1 : parse pf (utf8 a) = .ok da) (h2 : parse pf (utf8 b) = .ok db)
    (hq : ∀ d ∈ da.defs.getLast?, (∃ o, d.body = .op o) ∨ ∃ f, d.body = .frag f) :
    ∃ d, parse pf (utf8 (a ++ '\n' :: b)) = .ok d ∧ d.defs.map (·.body) = (da.defs ++ db.defs).map (·.body) := by
  refine C71_partial pf a b ha hb da db h1 h2 (fun _ d hd => ?_) ?_
  · rcases hq d hd with ⟨_, e⟩ | ⟨_, e⟩ <;> · rw [e]; trivial
  · rintro ⟨us, t, e0, ht, k1, k2⟩
    exfalso
    obtain ⟨ta, e, t1, he, m1, n1⟩ := parse_many h1
    obtain ⟨r, ⟨p, e1, -⟩, x, rfl, x1, x2⟩ := executable_end m1 rfl n1 hq
    rw [ht, e1] at t1
    have : us ++ [t, e0] = p ++ [x, e] := Out.ret.inj t1
    obtain ⟨-, e2⟩ := List.append_inj' this rfl
    cases e2
    rw [k2] at x2
    cases x2

/-- A case that meets the hypotheses of both theorems: the first text ends with a comment, the second begins with `{`. -/
example : ∃ d, parse pf (utf8 c!"query Q{a} # first\n{b}") = .ok d ∧ d.defs.length = 2 := by
  obtain ⟨d, h, e⟩ := C71_queries pf c!"query Q{a} # first" c!"{b}" (by decide) (by decide) _ _
    (parse_eq (ts := [⟨.name, b!"query", 1, 1⟩, ⟨.name, b!"Q", 1, 7⟩, ⟨.punctuator, b!"{", 1, 8⟩, ⟨.name, b!"a", 1, 9⟩, ⟨.punctuator, b!"}", 1, 10⟩, ⟨.eof, [], 1, 19⟩]) (by decide) rfl) (parse_eq (ts := [⟨.punctuator, b!"{", 1, 1⟩, ⟨.name, b!"b", 1, 2⟩, ⟨.punctuator, b!"}", 1, 3⟩, ⟨.eof, [], 1, 4⟩]) (by decide) rfl) (by intro d hd; cases hd; exact .inl ⟨_, rfl⟩)
  refine ⟨d, h, ?_⟩
  have e := congrArg List.length e
  rw [List.length_map] at e
  exact e

/-- **C71 fails as stated**, first exception: a type without braces, and a query, are accepted each, and on two lines are one type definition. -/
theorem C71_refuted_brace : ∃ da db d, parse pf (utf8 c!"type A") = .ok da ∧ parse pf (utf8 c!"{a:B}") = .ok db ∧ parse pf (utf8 c!"type A\n{a:B}") = .ok d ∧
    da.defs.length = 1 ∧ db.defs.length = 1 ∧ d.defs.length = 1 :=
  ⟨_, _, _, (parse_eq (ts := [⟨.name, b!"type", 1, 1⟩, ⟨.name, b!"A", 1, 6⟩, ⟨.eof, [], 1, 7⟩]) (by decide) rfl), (parse_eq (ts := [⟨.punctuator, b!"{", 1, 1⟩, ⟨.name, b!"a", 1, 2⟩, ⟨.punctuator, b!":", 1, 3⟩, ⟨.name, b!"B", 1, 4⟩, ⟨.punctuator, b!"}", 1, 5⟩, ⟨.eof, [], 1, 6⟩]) (by decide) rfl), (parse_eq (ts := [⟨.name, b!"type", 1, 1⟩, ⟨.name, b!"A", 1, 6⟩, ⟨.punctuator, b!"{", 2, 1⟩, ⟨.name, b!"a", 2, 2⟩, ⟨.punctuator, b!":", 2, 3⟩, ⟨.name, b!"B", 2, 4⟩, ⟨.punctuator, b!"}", 2, 5⟩, ⟨.eof, [], 2, 6⟩]) (by decide) rfl), rfl, rfl, rfl⟩

/-- Second exception: the code takes `[` at the end for a type; on two lines the texts are rejected. -/
theorem C71_refuted_bracket : ∃ da db, parse pf (utf8 c!"union U=[") = .ok da ∧ parse pf (utf8 c!"type B") = .ok db ∧ ∀ d, parse pf (utf8 c!"union U=[\ntype B") ≠ .ok d :=
  ⟨_, _, (parse_eq (ts := [⟨.name, b!"union", 1, 1⟩, ⟨.name, b!"U", 1, 7⟩, ⟨.punctuator, b!"=", 1, 8⟩, ⟨.punctuator, b!"[", 1, 9⟩, ⟨.eof, [], 1, 10⟩]) (by decide) rfl), (parse_eq (ts := [⟨.name, b!"type", 1, 1⟩, ⟨.name, b!"B", 1, 6⟩, ⟨.eof, [], 1, 7⟩]) (by decide) rfl), fun d h => by rw [(parse_eq (ts := [⟨.name, b!"union", 1, 1⟩, ⟨.name, b!"U", 1, 7⟩, ⟨.punctuator, b!"=", 1, 8⟩, ⟨.punctuator, b!"[", 1, 9⟩, ⟨.name, b!"type", 2, 1⟩, ⟨.name, b!"B", 2, 6⟩, ⟨.eof, [], 2, 7⟩]) (by decide) rfl)] at h; cases h⟩

end

end GQL
