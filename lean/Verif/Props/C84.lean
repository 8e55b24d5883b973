/-
C84 How deep the calls are nested.
-/
import Verif.Props.C11Doc
import Verif.Props.C12
import Verif.Proofs.DepthParse
import Verif.Proofs.DepthLex
import Verif.Proofs.DepthNeed

namespace GQL
open Spec

variable (pf : Bytes → Option Nat)

/-- C84, lexer: room for `sc` calls of `Scan` inside one another is too little exactly when `sc` comments or more follow one another
(before some token, or before the end); otherwise the tokens are the usual ones. -/
theorem C84_scan (cs : List Char) (h0 : '\x00' ∉ cs) (items : List Item) (rest : List Char) (hl : Lex GoBlock [] cs items rest)
    (hf : rest = [] ∨ Stuck GoBlock rest) (sc : Nat) :
    (tokensWithin sc (utf8 cs) = .oof ↔ CommentRun sc cs items cs) ∧
    (¬ CommentRun sc cs items cs → tokensWithin sc (utf8 cs) = tokens (utf8 cs)) := by
  obtain ⟨i2, r2, h1, h2, h3, h4⟩ := tokensWithinF_at (sc := sc) (n := (utf8 cs).length + 2) (at_new cs) (noNul_of h0)
    (by have := length_utf8_le cs; omega) []
  obtain ⟨rfl, rfl⟩ := C03_deterministic cs h0 _ _ _ _ hl hf h1 h2
  refine ⟨⟨fun h => Decidable.byContradiction (dec := Classical.propDecidable _) fun hn => ?_, h3⟩, h4⟩
  obtain ⟨_, _, e, -⟩ := C01_tokens_end (utf8 cs)
  have := h4 hn
  unfold tokensWithin at h
  rw [h] at this
  unfold tokens at e
  rw [← this] at e
  cases e

theorem scanF_agree {n m : Nat} {l : Lexer} (h1 : scanF n l ≠ .oof) (h2 : scanF m l ≠ .oof) : scanF n l = scanF m l := by
  induction n generalizing m l with
  | zero => exact absurd rfl h1
  | succ n ih =>
    obtain _ | m := m
    · exact absurd rfl h2
    unfold scanF at h1 h2 ⊢
    cases er : readNextSignificant l.fuel false l with
    | panic => rfl
    | oof => rfl
    | ret x =>
      obtain ⟨r, w, l0⟩ := x
      rw [er] at h1 h2
      dsimp only at h1 h2 ⊢
      by_cases c1 : isNameStart r = true
      · simp only [if_pos c1]
      simp only [if_neg c1] at h1 h2 ⊢
      by_cases c2 : isPunct r = true
      · simp only [if_pos c2]
      simp only [if_neg c2] at h1 h2 ⊢
      by_cases c3 : isDigit r = true ∨ r = 45
      · simp only [if_pos c3]
      simp only [if_neg c3] at h1 h2 ⊢
      by_cases c4 : r = 35
      · simp only [if_pos c4] at h1 h2 ⊢
        cases hs : skipComment l0.fuel false l0 with
        | panic => rfl
        | oof => rfl
        | ret l1 =>
          rw [hs] at h1 h2
          exact ih h1 h2
      · simp only [if_neg c4]

theorem tokensWithinF_or {sc n : Nat} {l : Lexer} (h2 : tokensF n l ≠ .oof) :
    tokensWithinF sc n l = .oof ∨ tokensWithinF sc n l = tokensF n l := by
  induction n generalizing l with
  | zero => exact .inl rfl
  | succ n ih =>
    by_cases h1 : scanF sc l = .oof
    · left; unfold tokensWithinF; rw [h1]
    · unfold tokensF at h2
      have e : scanF sc l = scan l := scanF_agree h1 (fun e => h2 (by unfold scan; rw [e]))
      unfold tokensWithinF tokensF
      rw [e]
      cases es : scan l with
      | panic => exact .inr rfl
      | oof => exact .inr rfl
      | ret x =>
        obtain ⟨t, l'⟩ := x
        rw [es] at h2
        dsimp only at h2 ⊢
        by_cases hk : t.kind = .eof ∨ t.kind = .illegal
        · right; simp only [if_pos hk]
        · simp only [if_neg hk] at h2 ⊢
          rcases ih (l := l') (fun e => h2 (by rw [e])) with h | h
          · left; rw [h]
          · right; rw [h]; cases tokensF n l' <;> rfl

/-- With little room the tokens are the same, or there is not enough of it. -/
theorem tokensWithin_or (sc : Nat) (input : Bytes) : tokensWithin sc input = .oof ∨ tokensWithin sc input = tokens input := by
  refine tokensWithinF_or fun e => ?_
  obtain ⟨_, _, e2, -⟩ := C01_tokens_end input
  unfold tokens at e2
  rw [e] at e2
  cases e2

/-- C84, parser: if braces and brackets are nested at most `k` deep in the tokens of an input (any bytes), then with room for `k+1` calls of
the recursive functions of the parser inside one another everything is as usual; `sc` is enough for the lexer. -/
theorem C84_parse_partial (input : Bytes) (ts : List Token) (sc : Nat) (ht : tokensWithin sc input = .ret ts) (k : Nat) (hk : NestedAtMost k ts)
    (pc : Nat) (hpc : k < pc) : parseWithin pf sc pc input = parse pf input := by
  have ht2 : tokens input = .ret ts := by
    rcases tokensWithin_or sc input with e | e
    · rw [e] at ht; cases ht
    · rw [← e, ht]
  unfold parseWithin
  rw [ht]
  dsimp only
  obtain ⟨us, hu, e⟩ := parse_tokens (pf := pf) (input := input)
  rw [ht2] at hu
  cases (Out.ret.inj hu)
  rw [e]
  unfold parseTokens
  have hlen : ∃ j, NestedAtMost j ts ∧ j < pc ∧ j < ts.length + 1 := by
    by_cases hj : k < ts.length + 1
    · exact ⟨k, hk, hpc, hj⟩
    · refine ⟨ts.length, fun r s e => ?_, by omega, by omega⟩
      have : r.countP (fun t => decide (Opens t)) ≤ r.length := List.countP_le_length
      have h2 := congrArg List.length e
      rw [List.length_append] at h2
      omega
  obtain ⟨j, h1, h2, h3⟩ := hlen
  rw [((k_defs (pf := pf) h2 h3) ts h1).1]
  cases parseDefs pf (ts.length + 1) ts <;> rfl

/-- C84, together: the text has no NUL and no run of `sc` comments, and braces and brackets are nested less than `pc` deep in it: there is enough room on
the stack, and everything is as usual. -/
theorem C84_partial (cs : List Char) (h0 : '\x00' ∉ cs) (items : List Item) (rest : List Char) (hl : Lex GoBlock [] cs items rest)
    (hf : rest = [] ∨ Stuck GoBlock rest) (sc pc k : Nat) (hsc : ¬ CommentRun sc cs items cs) (ts : List Token) (ht : tokens (utf8 cs) = .ret ts)
    (hk : NestedAtMost k ts) (hpc : k < pc) :
    parseWithin pf sc pc (utf8 cs) = parse pf (utf8 cs) ∧ parseWithin pf sc pc (utf8 cs) ≠ .oof := by
  have := C84_parse_partial pf (utf8 cs) ts sc (((C84_scan cs h0 items rest hl hf sc).2 hsc).trans ht) k hk pc hpc
  refine ⟨this, ?_⟩
  rw [this]
  exact C13_terminates pf _

/-- A document with selections that are deep takes that much room. -/
theorem C84_needed (input : Bytes) (sc pc : Nat) (d : Document) (h : parseWithin pf sc pc input = .ok d) :
    ∀ x ∈ d.defs, BodyWithin pc x.body := by
  unfold parseWithin at h
  cases ht : tokensWithin sc input with
  | panic => rw [ht] at h; cases h
  | oof => rw [ht] at h; cases h
  | ret ts =>
    rw [ht] at h
    dsimp only at h
    cases hd : parseDefs pf pc ts with
    | ok ds r =>
      rw [hd] at h
      have := ParseOut.ok.inj h
      rw [← this, mkDocument_defs]
      exact g_defs ts ds r hd
    | err _ _ => rw [hd] at h; cases h
    | panic => rw [hd] at h; cases h
    | oof => rw [hd] at h; cases h

/-- `n` empty comments. -/
def Spec.comments : Nat → List Char
  | 0 => []
  | n+1 => '#' :: '\n' :: comments n

theorem comments_sep (n : Nat) : Sep (comments n) ∧ '\x00' ∉ comments n := by
  induction n with
  | zero => exact ⟨.nil, by simp [comments]⟩
  | succ n ih =>
    refine ⟨.comment (body := []) (t := '\n') (by simp) rfl ih.1, ?_⟩
    simp only [comments, List.mem_cons, not_or]
    exact ⟨by decide, by decide, ih.2⟩

theorem leading_comments (n : Nat) (cs : List Char) (h : leadingComments false cs = 0) : leadingComments false (comments n ++ cs) = n := by
  induction n with
  | zero => exact h
  | succ n ih =>
    show leadingComments false ('#' :: '\n' :: (comments n ++ cs)) = n + 1
    rw [leadingComments, if_pos rfl, leadingComments]
    show 1 + leadingComments false (comments n ++ cs) = n + 1
    rw [ih, Nat.add_comm]

/-- C84 fails for comments: no amount of stack is enough for all documents that have one brace in them. -/
theorem C84_refuted_comments (n : Nat) : ∃ cs d, '\x00' ∉ cs ∧ cs = comments n ++ c!"{a}" ∧
    parse pf (utf8 cs) = .ok d ∧ (∃ ts, tokens (utf8 cs) = .ret ts ∧ NestedAtMost 1 ts) ∧ ∀ pc, parseWithin pf n pc (utf8 cs) = .oof := by
  have hl : Lex GoBlock [] ([] ++ c!"{a}") [⟨⟨.punctuator, ['{']⟩, [], ['{']⟩, ⟨⟨.name, ['a']⟩, c!"{", ['a']⟩,
      ⟨⟨.punctuator, ['}']⟩, c!"{a", ['}']⟩] [] :=
    .token (lx := ['{']) (.punct _ _ (by decide)) <|
    .token (lx := ['a']) (.name 'a' [] _ rfl (by simp) (by intro c t e; cases e; rfl)) <|
    .token (lx := ['}']) (.punct _ _ (by decide)) <| .done _ _
  have hi : Inserted c!"{a}" ([] ++ comments n ++ c!"{a}") :=
    .step .refl hl (.head _) (.inl rfl) (comments_sep n).1 (comments_sep n).2
  rw [List.nil_append] at hi
  have ht : tokens (utf8 c!"{a}") = .ret ([⟨.punctuator, b!"{", 1, 1⟩, ⟨.name, b!"a", 1, 2⟩, ⟨.punctuator, b!"}", 1, 3⟩] ++ [⟨.eof, [], 1, 4⟩]) := by decide
  obtain ⟨d, hd, -⟩ := C11_document pf c!"{a}" _ (by decide) hi _ (parse_eq ht rfl)
  obtain ⟨toks', last', ht', he', hk⟩ := C11_tokens c!"{a}" _ (by decide) hi _ _ ht rfl
  have h0 : '\x00' ∉ comments n ++ c!"{a}" := by
    rw [List.mem_append, not_or]
    exact ⟨(comments_sep n).2, by decide⟩
  refine ⟨_, d, h0, rfl, hd, ⟨_, ht', ?_⟩, fun pc => ?_⟩
  · refine nest_same (ts := [⟨.punctuator, b!"{", 1, 1⟩, ⟨.name, b!"a", 1, 2⟩, ⟨.punctuator, b!"}", 1, 3⟩] ++ [⟨.eof, last'.lit, 1, 4⟩]) ?_ ?_
    · rw [List.map_append, List.map_append, hk]
      simp [he']
    · refine nest_of_check ?_
      simp [nestCheck, Opens, Closes]
  · obtain ⟨i2, r2, toks, last, l1, l2, -⟩ := C03_tokens _ h0
    have := (C84_scan _ h0 i2 r2 l1 l2 n).1.2 (.inl (by rw [leading_comments n _ (by decide)]; exact Nat.le_refl n))
    unfold parseWithin
    rw [this]

/-- `n` times `{a`. -/
def Spec.deep : Nat → List Char
  | 0 => []
  | n+1 => '{' :: 'a' :: deep n

/-- The tokens of `deep n`. -/
def deepItems : Nat → List Char → List Item
  | 0, _ => []
  | n+1, pre => ⟨⟨.punctuator, ['{']⟩, pre, ['{']⟩ :: ⟨⟨.name, ['a']⟩, pre ++ ['{'], ['a']⟩ :: deepItems n (pre ++ ['{'] ++ ['a'])

theorem deep_lex (n : Nat) (pre : List Char) : Lex GoBlock pre (deep n) (deepItems n pre) [] := by
  induction n generalizing pre with
  | zero => exact .done _ _
  | succ n ih =>
    refine .token (lx := ['{']) (.punct _ _ (by decide)) (.token (lx := ['a']) (.name 'a' [] _ rfl (by simp) ?_) (ih _))
    intro c t e
    cases n with
    | zero => cases e
    | succ n => cases e; rfl

/-- The kinds and literals of the tokens of `deep n`. -/
def deepSig : Nat → List (TokenKind × Bytes)
  | 0 => []
  | n+1 => (.punctuator, b!"{") :: (.name, b!"a") :: deepSig n

theorem deepItems_sig (n : Nat) (pre : List Char) : (deepItems n pre).map (fun i => (goKind i.tok.kind, utf8 i.tok.value)) = deepSig n := by
  induction n generalizing pre with
  | zero => rfl
  | succ n ih =>
    show _ :: _ :: _ = _ :: _ :: _
    rw [ih]
    rfl

theorem bind_eq_oof {α β : Type} {p : P α} {f : α → P β} {ts : List Token} (h : p ts = .oof) : (p >>= f) ts = .oof := by
  show P.bind p f ts = _
  unfold P.bind
  rw [h]

theorem deep_oof (n m : Nat) (hm : n < m) (o : Bool) (toks tail : List Token) (h : toks.map (fun t => (t.kind, t.lit)) = deepSig m) :
    parseSelectionSet pf n o (toks ++ tail) = .oof := by
  induction n generalizing m toks o with
  | zero => rfl
  | succ n ih =>
    obtain _ | m := m
    · omega
    obtain _ | m := m
    · omega
    match toks, h with
    | t1 :: t2 :: t3 :: toks, h =>
      have e1 := (List.cons.inj h).1
      have e2 := (List.cons.inj (List.cons.inj h).2).1
      have e3 := (List.cons.inj (List.cons.inj (List.cons.inj h).2).2).1
      have h' : (t3 :: toks).map (fun t => (t.kind, t.lit)) = deepSig (m+1) := (List.cons.inj (List.cons.inj h).2).2
      have hrec := ih (m+1) (by omega) true (t3 :: toks) h'
      obtain ⟨k1, l1, _, _⟩ := t1
      obtain ⟨k2, l2, _, _⟩ := t2
      obtain ⟨k3, l3, _, _⟩ := t3
      cases e1; cases e2; cases e3
      unfold parseSelectionSet
      refine (bind_eq (a := true) (by rfl)).trans ?_
      rw [if_pos rfl]
      refine bind_eq_oof (bind_eq_oof ?_)
      refine (bind_eq (a := false) (by rfl)).trans ?_
      rw [if_neg (by decide)]
      unfold parseField
      refine (bind_eq (by rfl)).trans ?_
      refine (bind_eq (a := (([] : Bytes), b!"a")) (by rfl)).trans ?_
      dsimp only
      refine (bind_eq (by rfl)).trans ?_
      refine (bind_eq (by rfl)).trans ?_
      exact bind_eq_oof hrec
    | [], h => cases h
    | [_], h => cases (List.cons.inj h).2
    | [_, _], h => cases (List.cons.inj (List.cons.inj h).2).2

/-- C84 fails without the nesting: no amount of stack is enough for all inputs. -/
theorem C84_refuted_nesting (n sc : Nat) : ∃ cs, '\x00' ∉ cs ∧ cs = deep (n+1) ∧ parseWithin pf sc n (utf8 cs) = .oof := by
  have h0 : ∀ m, '\x00' ∉ deep m := by
    intro m
    induction m with
    | zero => simp [deep]
    | succ m ih =>
      simp only [deep, List.mem_cons, not_or]
      exact ⟨by decide, by decide, ih⟩
  refine ⟨deep (n+1), h0 _, rfl, ?_⟩
  obtain ⟨i2, r2, toks, last, l1, l2, l3, l4, -⟩ := C03_tokens _ (h0 (n+1))
  obtain ⟨rfl, rfl⟩ := C03_deterministic _ (h0 (n+1)) _ _ _ _ (deep_lex (n+1) []) (.inl rfl) l1 l2
  unfold SameTokens at l4
  rw [deepItems_sig] at l4
  unfold parseWithin
  rcases tokensWithin_or sc (utf8 (deep (n+1))) with e | e
  · rw [e]
  · rw [e, l3]
    have hs := deep_oof pf n (n+1) (by omega) false toks [last] l4
    match toks, l4 with
    | t1 :: toks, h =>
      have e1 := (List.cons.inj h).1
      obtain ⟨k1, l1, x, y⟩ := t1
      cases e1
      have : parseDefs pf n (⟨.punctuator, b!"{", x, y⟩ :: toks ++ [last]) = .oof := by
        unfold parseDefs
        refine bind_eq_oof (bind_eq_oof ?_)
        unfold parseDefinition
        refine (bind_eq (by rfl)).trans ?_
        refine bind_eq_oof ?_
        unfold parseDefinitionBody
        refine (bind_eq (by rfl)).trans ?_
        refine (bind_eq (a := true) (by rfl)).trans ?_
        rw [if_pos rfl]
        refine bind_eq_oof ?_
        exact bind_eq_oof hs
      dsimp only
      rw [this]
    | [], h => cases h

/-- `#x` and a line feed, then `{a(b:[1])}`: a comment and two levels, so room for two calls and three calls is enough, and for one call of `Scan` is not. -/
example : ∃ items rest ts, Lex GoBlock [] c!"#x\n{a(b:[1])}" items rest ∧ (rest = [] ∨ Stuck GoBlock rest) ∧
    ¬ CommentRun 2 c!"#x\n{a(b:[1])}" items c!"#x\n{a(b:[1])}" ∧ CommentRun 1 c!"#x\n{a(b:[1])}" items c!"#x\n{a(b:[1])}" ∧
    tokens (utf8 c!"#x\n{a(b:[1])}") = .ret ts ∧ NestedAtMost 2 ts := by
  have hl : Lex GoBlock [] c!"#x\n{a(b:[1])}" [⟨⟨.punctuator, ['{']⟩, c!"#x\n", ['{']⟩, ⟨⟨.name, ['a']⟩, c!"#x\n{", ['a']⟩,
      ⟨⟨.punctuator, ['(']⟩, c!"#x\n{a", ['(']⟩, ⟨⟨.name, ['b']⟩, c!"#x\n{a(", ['b']⟩, ⟨⟨.punctuator, [':']⟩, c!"#x\n{a(b", [':']⟩,
      ⟨⟨.punctuator, ['[']⟩, c!"#x\n{a(b:", ['[']⟩, ⟨⟨.int, ['1']⟩, c!"#x\n{a(b:[", ['1']⟩, ⟨⟨.punctuator, [']']⟩, c!"#x\n{a(b:[1", [']']⟩,
      ⟨⟨.punctuator, [')']⟩, c!"#x\n{a(b:[1]", [')']⟩, ⟨⟨.punctuator, ['}']⟩, c!"#x\n{a(b:[1])", ['}']⟩] [] :=
    .comment (body := ['x']) (text := c!"\n{a(b:[1])}") (by decide) (by intro c t e; cases e; rfl) <| .ignore rfl <|
    .token (lx := ['{']) (.punct _ _ (by decide)) <|
    .token (lx := ['a']) (.name 'a' [] _ rfl (by simp) (by intro c t e; cases e; rfl)) <|
    .token (lx := ['(']) (.punct _ _ (by decide)) <|
    .token (lx := ['b']) (.name 'b' [] _ rfl (by simp) (by intro c t e; cases e; rfl)) <|
    .token (lx := [':']) (.punct _ _ (by decide)) <|
    .token (lx := ['[']) (.punct _ _ (by decide)) <|
    .token (lx := ['1']) (.int ['1'] _ (.pos '1' [] rfl (by decide) (by simp)) (by intro c t e; cases e; rfl)) <|
    .token (lx := [']']) (.punct _ _ (by decide)) <|
    .token (lx := [')']) (.punct _ _ (by decide)) <|
    .token (lx := ['}']) (.punct _ _ (by decide)) <| .done _ _
  exact ⟨_, _, _, hl, .inl rfl, by simp only [CommentRun]; decide, .inl (by decide), (by decide :
    tokens (utf8 c!"#x\n{a(b:[1])}") = .ret [⟨.punctuator, b!"{", 2, 1⟩, ⟨.name, b!"a", 2, 2⟩, ⟨.punctuator, b!"(", 2, 3⟩, ⟨.name, b!"b", 2, 4⟩, ⟨.punctuator, b!":", 2, 5⟩, ⟨.punctuator, b!"[", 2, 6⟩, ⟨.intValue, b!"1", 2, 7⟩, ⟨.punctuator, b!"]", 2, 8⟩, ⟨.punctuator, b!")", 2, 9⟩, ⟨.punctuator, b!"}", 2, 10⟩, ⟨.eof, [], 2, 11⟩]), nest_of_check (by decide)⟩

end GQL
